/-
Tests, not proofs: files of /repo/test/single_file, part 4.  Each case has the source, the
syntax tree of the source and the output that the repository expects for it, with and
without optimisations.  The trees were made by a program that parses the sources.
-/
import Verif.Tests.Case

namespace Dredd.Tests

/-- test/single_file/unary_logical_not.c -/
def unary_logical_not_c : Case :=
  let src : Text := t!"#include <stdbool.h>\n\nint main() {\n  bool y = true;\n  return !y;\n}\n"
  { name := "unary_logical_not.c", lang := cBool, src := src, ast :=
    .decl ⟨.tu, none⟩ [
     .decl ⟨.func false none, (some ⟨22, 66⟩)⟩ [
      st src .compound .plain (some ⟨33, 66⟩) [
       st src .declStmt .plain (some ⟨37, 51⟩) [
        .decl ⟨.var ⟨42, false, [], [], false, false, false⟩, (some ⟨37, 50⟩)⟩ [
         ex src (.cast true false) (some .bool) .plain 46 (some ⟨46, 50⟩) (fun f => { f with intVal := some 1, boolVal := some true }) [
          ex src .other (some .int) .operand 46 (some ⟨46, 50⟩) (fun f => { f with intVal := some 1, boolVal := some true }) []]]],
       st src .other .plain (some ⟨54, 63⟩) [
        ex src (.unary .lnot) (some .int) .plain 61 (some ⟨61, 63⟩) (fun f => { f with opOff := some 61 }) [
         ex src (.cast true false) (some .bool) .operand 62 (some ⟨62, 63⟩) id [
          ex src .other (some .bool) .operand 62 (some ⟨62, 63⟩) (fun f => { f with lvalue := true }) []]]]]]]
    expected := "// DREDD PRELUDE START\n// If this has been inserted at an inappropriate place in a source file,\n// declare a placeholder function with the following signature to\n// mandate where the prelude should be placed:\n//\n// void __dredd_prelude_start();\n//\n#include <inttypes.h>\n#include <stdatomic.h>\n#include <stdbool.h>\n#include <stdio.h>\n#include <stdlib.h>\n#include <string.h>\n\n#ifdef _MSC_VER\n#define thread_local __declspec(thread)\n#elif __APPLE__\n#define thread_local __thread\n#else\n#include <threads.h>\n#endif\n\nstatic thread_local int __dredd_some_mutation_enabled = 1;\nstatic bool __dredd_enabled_mutation(int local_mutation_id) {\n  static thread_local int initialized = 0;\n  static thread_local uint64_t enabled_bitset[1];\n  if (!initialized) {\n    int some_mutation_enabled = 0;\n    const char* dredd_environment_variable = getenv(\"DREDD_ENABLED_MUTATION\");\n    if (dredd_environment_variable) {\n      char* temp = malloc(strlen(dredd_environment_variable) + 1);\n      strcpy(temp, dredd_environment_variable);\n      char* token;\n      token = strtok(temp, \",\");\n      while(token) {\n        int value = atoi(token);\n        int local_value = value - 0;\n        if (local_value >= 0 && local_value < 13) {\n          enabled_bitset[local_value / 64] |= ((uint64_t) 1 << (local_value % 64));\n          some_mutation_enabled = 1;\n        }\n        token = strtok(NULL, \",\");\n      }\n      free(temp);\n    }\n    initialized = 1;\n    __dredd_some_mutation_enabled = some_mutation_enabled;\n  }\n  return enabled_bitset[local_mutation_id / 64] & ((uint64_t) 1 << (local_mutation_id % 64));\n}\n\nstatic int __dredd_replace_unary_operator_LNot_bool(bool arg, int local_mutation_id) {\n  if (!__dredd_some_mutation_enabled) return !arg;\n  if (__dredd_enabled_mutation(local_mutation_id + 0)) return ~arg;\n  if (__dredd_enabled_mutation(local_mutation_id + 1)) return -arg;\n  return !arg;\n}\n\nstatic int __dredd_replace_expr_int(int arg, int local_mutation_id) {\n  if (!__dredd_some_mutation_enabled) return arg;\n  if (__dredd_enabled_mutation(local_mutation_id + 0)) return !(arg);\n  if (__dredd_enabled_mutation(local_mutation_id + 1)) return ~(arg);\n  if (__dredd_enabled_mutation(local_mutation_id + 2)) return -(arg);\n  if (__dredd_enabled_mutation(local_mutation_id + 3)) return 0;\n  if (__dredd_enabled_mutation(local_mutation_id + 4)) return 1;\n  if (__dredd_enabled_mutation(local_mutation_id + 5)) return -1;\n  return arg;\n}\n\nstatic bool __dredd_replace_expr_bool_true(bool arg, int local_mutation_id) {\n  if (!__dredd_some_mutation_enabled) return arg;\n  if (__dredd_enabled_mutation(local_mutation_id + 0)) return 0;\n  return arg;\n}\n\nstatic bool __dredd_replace_expr_bool(bool arg, int local_mutation_id) {\n  if (!__dredd_some_mutation_enabled) return arg;\n  if (__dredd_enabled_mutation(local_mutation_id + 0)) return !(arg);\n  if (__dredd_enabled_mutation(local_mutation_id + 1)) return 1;\n  if (__dredd_enabled_mutation(local_mutation_id + 2)) return 0;\n  return arg;\n}\n\n#include <stdbool.h>\n\nint main() {\n  bool y = __dredd_replace_expr_bool_true(true, 0);\n  if (!__dredd_enabled_mutation(12)) { return __dredd_replace_expr_int(__dredd_replace_unary_operator_LNot_bool(__dredd_replace_expr_bool(y, 1), 4), 6); }\n}\n"
    noopt := "// DREDD PRELUDE START\n// If this has been inserted at an inappropriate place in a source file,\n// declare a placeholder function with the following signature to\n// mandate where the prelude should be placed:\n//\n// void __dredd_prelude_start();\n//\n#include <inttypes.h>\n#include <stdatomic.h>\n#include <stdbool.h>\n#include <stdio.h>\n#include <stdlib.h>\n#include <string.h>\n\n#ifdef _MSC_VER\n#define thread_local __declspec(thread)\n#elif __APPLE__\n#define thread_local __thread\n#else\n#include <threads.h>\n#endif\n\nstatic thread_local int __dredd_some_mutation_enabled = 1;\nstatic bool __dredd_enabled_mutation(int local_mutation_id) {\n  static thread_local int initialized = 0;\n  static thread_local uint64_t enabled_bitset[1];\n  if (!initialized) {\n    int some_mutation_enabled = 0;\n    const char* dredd_environment_variable = getenv(\"DREDD_ENABLED_MUTATION\");\n    if (dredd_environment_variable) {\n      char* temp = malloc(strlen(dredd_environment_variable) + 1);\n      strcpy(temp, dredd_environment_variable);\n      char* token;\n      token = strtok(temp, \",\");\n      while(token) {\n        int value = atoi(token);\n        int local_value = value - 0;\n        if (local_value >= 0 && local_value < 22) {\n          enabled_bitset[local_value / 64] |= ((uint64_t) 1 << (local_value % 64));\n          some_mutation_enabled = 1;\n        }\n        token = strtok(NULL, \",\");\n      }\n      free(temp);\n    }\n    initialized = 1;\n    __dredd_some_mutation_enabled = some_mutation_enabled;\n  }\n  return enabled_bitset[local_mutation_id / 64] & ((uint64_t) 1 << (local_mutation_id % 64));\n}\n\nstatic int __dredd_replace_unary_operator_LNot_bool(bool arg, int local_mutation_id) {\n  if (!__dredd_some_mutation_enabled) return !arg;\n  if (__dredd_enabled_mutation(local_mutation_id + 0)) return ~arg;\n  if (__dredd_enabled_mutation(local_mutation_id + 1)) return -arg;\n  if (__dredd_enabled_mutation(local_mutation_id + 2)) return arg;\n  return !arg;\n}\n\nstatic int __dredd_replace_expr_int(int arg, int local_mutation_id) {\n  if (!__dredd_some_mutation_enabled) return arg;\n  if (__dredd_enabled_mutation(local_mutation_id + 0)) return !(arg);\n  if (__dredd_enabled_mutation(local_mutation_id + 1)) return ~(arg);\n  if (__dredd_enabled_mutation(local_mutation_id + 2)) return -(arg);\n  if (__dredd_enabled_mutation(local_mutation_id + 3)) return 0;\n  if (__dredd_enabled_mutation(local_mutation_id + 4)) return 1;\n  if (__dredd_enabled_mutation(local_mutation_id + 5)) return -1;\n  return arg;\n}\n\nstatic bool __dredd_replace_expr_bool(bool arg, int local_mutation_id) {\n  if (!__dredd_some_mutation_enabled) return arg;\n  if (__dredd_enabled_mutation(local_mutation_id + 0)) return !(arg);\n  if (__dredd_enabled_mutation(local_mutation_id + 1)) return 1;\n  if (__dredd_enabled_mutation(local_mutation_id + 2)) return 0;\n  return arg;\n}\n\n#include <stdbool.h>\n\nint main() {\n  bool y = __dredd_replace_expr_bool(__dredd_replace_expr_int(true, 0), 6);\n  if (!__dredd_enabled_mutation(21)) { return __dredd_replace_expr_int(__dredd_replace_unary_operator_LNot_bool(__dredd_replace_expr_bool(y, 9), 12), 15); }\n}\n" }

#guard unary_logical_not_c.ok

/-- test/single_file/unary_logical_not.cc -/
def unary_logical_not_cc : Case :=
  let src : Text := t!"int main() {\n  bool y = true;\n  return !y;\n}\n"
  { name := "unary_logical_not.cc", lang := cpp, src := src, ast :=
    .decl ⟨.tu, none⟩ [
     .decl ⟨.func false none, (some ⟨0, 44⟩)⟩ [
      st src .compound .plain (some ⟨11, 44⟩) [
       st src .declStmt .plain (some ⟨15, 29⟩) [
        .decl ⟨.var ⟨20, false, [], [], false, false, false⟩, (some ⟨15, 28⟩)⟩ [
         ex src .other (some .bool) .plain 24 (some ⟨24, 28⟩) (fun f => { f with intVal := some 1, boolVal := some true, cxx11Const := true }) []]],
       st src .other .plain (some ⟨32, 41⟩) [
        ex src (.cast true false) (some .int) .plain 39 (some ⟨39, 41⟩) id [
         ex src (.unary .lnot) (some .bool) .operand 39 (some ⟨39, 41⟩) (fun f => { f with opOff := some 39 }) [
          ex src (.cast true false) (some .bool) .operand 40 (some ⟨40, 41⟩) id [
           ex src .other (some .bool) .operand 40 (some ⟨40, 41⟩) (fun f => { f with lvalue := true }) []]]]]]]]
    expected := "// DREDD PRELUDE START\n// If this has been inserted at an inappropriate place in a source file,\n// declare a placeholder function with the following signature to\n// mandate where the prelude should be placed:\n//\n// void __dredd_prelude_start();\n//\n#include <atomic>\n#include <cinttypes>\n#include <cstddef>\n#include <fstream>\n#include <functional>\n#include <sstream>\n#include <string>\n\n\n#ifdef _MSC_VER\n#define thread_local __declspec(thread)\n#elif __APPLE__\n#define thread_local __thread\n#endif\n\nstatic thread_local bool __dredd_some_mutation_enabled = true;\nstatic bool __dredd_enabled_mutation(int local_mutation_id) {\n  static thread_local bool initialized = false;\n  static thread_local uint64_t enabled_bitset[1];\n  if (!initialized) {\n    bool some_mutation_enabled = false;\n    const char* dredd_environment_variable = std::getenv(\"DREDD_ENABLED_MUTATION\");\n    if (dredd_environment_variable != nullptr) {\n      std::string contents(dredd_environment_variable);\n      while (true) {\n        size_t pos = contents.find(\",\");\n        std::string token = (pos == std::string::npos ? contents : contents.substr(0, pos));\n        if (!token.empty()) {\n          int value = std::stoi(token);\n          int local_value = value - 0;\n          if (local_value >= 0 && local_value < 13) {\n            enabled_bitset[local_value / 64] |= (static_cast<uint64_t>(1) << (local_value % 64));\n            some_mutation_enabled = true;\n          }\n        }\n        if (pos == std::string::npos) {\n          break;\n        }\n        contents.erase(0, pos + 1);\n      }\n    }\n    initialized = true;\n    __dredd_some_mutation_enabled = some_mutation_enabled;\n  }\n  return (enabled_bitset[local_mutation_id / 64] & (static_cast<uint64_t>(1) << (local_mutation_id % 64))) != 0;\n}\n\nstatic int __dredd_replace_expr_int(int arg, int local_mutation_id) {\n  if (!__dredd_some_mutation_enabled) return arg;\n  if (__dredd_enabled_mutation(local_mutation_id + 0)) return !(arg);\n  if (__dredd_enabled_mutation(local_mutation_id + 1)) return ~(arg);\n  if (__dredd_enabled_mutation(local_mutation_id + 2)) return -(arg);\n  if (__dredd_enabled_mutation(local_mutation_id + 3)) return 0;\n  if (__dredd_enabled_mutation(local_mutation_id + 4)) return 1;\n  if (__dredd_enabled_mutation(local_mutation_id + 5)) return -1;\n  return arg;\n}\n\nstatic bool __dredd_replace_unary_operator_LNot_bool(bool arg, int local_mutation_id) {\n  if (!__dredd_some_mutation_enabled) return !arg;\n  if (__dredd_enabled_mutation(local_mutation_id + 0)) return ~arg;\n  if (__dredd_enabled_mutation(local_mutation_id + 1)) return -arg;\n  return !arg;\n}\n\nstatic bool __dredd_replace_expr_bool_true(bool arg, int local_mutation_id) {\n  if (!__dredd_some_mutation_enabled) return arg;\n  if (__dredd_enabled_mutation(local_mutation_id + 0)) return false;\n  return arg;\n}\n\nstatic bool __dredd_replace_expr_bool(bool arg, int local_mutation_id) {\n  if (!__dredd_some_mutation_enabled) return arg;\n  if (__dredd_enabled_mutation(local_mutation_id + 0)) return !(arg);\n  if (__dredd_enabled_mutation(local_mutation_id + 1)) return true;\n  if (__dredd_enabled_mutation(local_mutation_id + 2)) return false;\n  return arg;\n}\n\nint main() {\n  bool y = __dredd_replace_expr_bool_true(true, 0);\n  if (!__dredd_enabled_mutation(12)) { return __dredd_replace_expr_int(__dredd_replace_unary_operator_LNot_bool(__dredd_replace_expr_bool(y, 1), 4), 6); }\n}\n"
    noopt := "// DREDD PRELUDE START\n// If this has been inserted at an inappropriate place in a source file,\n// declare a placeholder function with the following signature to\n// mandate where the prelude should be placed:\n//\n// void __dredd_prelude_start();\n//\n#include <atomic>\n#include <cinttypes>\n#include <cstddef>\n#include <fstream>\n#include <functional>\n#include <sstream>\n#include <string>\n\n\n#ifdef _MSC_VER\n#define thread_local __declspec(thread)\n#elif __APPLE__\n#define thread_local __thread\n#endif\n\nstatic thread_local bool __dredd_some_mutation_enabled = true;\nstatic bool __dredd_enabled_mutation(int local_mutation_id) {\n  static thread_local bool initialized = false;\n  static thread_local uint64_t enabled_bitset[1];\n  if (!initialized) {\n    bool some_mutation_enabled = false;\n    const char* dredd_environment_variable = std::getenv(\"DREDD_ENABLED_MUTATION\");\n    if (dredd_environment_variable != nullptr) {\n      std::string contents(dredd_environment_variable);\n      while (true) {\n        size_t pos = contents.find(\",\");\n        std::string token = (pos == std::string::npos ? contents : contents.substr(0, pos));\n        if (!token.empty()) {\n          int value = std::stoi(token);\n          int local_value = value - 0;\n          if (local_value >= 0 && local_value < 19) {\n            enabled_bitset[local_value / 64] |= (static_cast<uint64_t>(1) << (local_value % 64));\n            some_mutation_enabled = true;\n          }\n        }\n        if (pos == std::string::npos) {\n          break;\n        }\n        contents.erase(0, pos + 1);\n      }\n    }\n    initialized = true;\n    __dredd_some_mutation_enabled = some_mutation_enabled;\n  }\n  return (enabled_bitset[local_mutation_id / 64] & (static_cast<uint64_t>(1) << (local_mutation_id % 64))) != 0;\n}\n\nstatic int __dredd_replace_expr_int(int arg, int local_mutation_id) {\n  if (!__dredd_some_mutation_enabled) return arg;\n  if (__dredd_enabled_mutation(local_mutation_id + 0)) return !(arg);\n  if (__dredd_enabled_mutation(local_mutation_id + 1)) return ~(arg);\n  if (__dredd_enabled_mutation(local_mutation_id + 2)) return -(arg);\n  if (__dredd_enabled_mutation(local_mutation_id + 3)) return 0;\n  if (__dredd_enabled_mutation(local_mutation_id + 4)) return 1;\n  if (__dredd_enabled_mutation(local_mutation_id + 5)) return -1;\n  return arg;\n}\n\nstatic bool __dredd_replace_unary_operator_LNot_bool(bool arg, int local_mutation_id) {\n  if (!__dredd_some_mutation_enabled) return !arg;\n  if (__dredd_enabled_mutation(local_mutation_id + 0)) return ~arg;\n  if (__dredd_enabled_mutation(local_mutation_id + 1)) return -arg;\n  if (__dredd_enabled_mutation(local_mutation_id + 2)) return arg;\n  return !arg;\n}\n\nstatic bool __dredd_replace_expr_bool(bool arg, int local_mutation_id) {\n  if (!__dredd_some_mutation_enabled) return arg;\n  if (__dredd_enabled_mutation(local_mutation_id + 0)) return !(arg);\n  if (__dredd_enabled_mutation(local_mutation_id + 1)) return true;\n  if (__dredd_enabled_mutation(local_mutation_id + 2)) return false;\n  return arg;\n}\n\nint main() {\n  bool y = __dredd_replace_expr_bool(true, 0);\n  if (!__dredd_enabled_mutation(18)) { return __dredd_replace_expr_int(__dredd_replace_expr_bool(__dredd_replace_unary_operator_LNot_bool(__dredd_replace_expr_bool(y, 3), 6), 9), 12); }\n}\n" }

#guard unary_logical_not_cc.ok

/-- test/single_file/unary_minus.c -/
def unary_minus_c : Case :=
  let src : Text := t!"int main() {\n  int x = 1;\n  return -x;\n}\n"
  { name := "unary_minus.c", lang := c, src := src, ast :=
    .decl ⟨.tu, none⟩ [
     .decl ⟨.func false none, (some ⟨0, 40⟩)⟩ [
      st src .compound .plain (some ⟨11, 40⟩) [
       st src .declStmt .plain (some ⟨15, 25⟩) [
        .decl ⟨.var ⟨19, false, [], [], false, false, false⟩, (some ⟨15, 24⟩)⟩ [
         ex src .other (some .int) .plain 23 (some ⟨23, 24⟩) (fun f => { f with intVal := some 1, boolVal := some true }) []]],
       st src .other .plain (some ⟨28, 37⟩) [
        ex src (.unary .minus) (some .int) .plain 35 (some ⟨35, 37⟩) (fun f => { f with opOff := some 35 }) [
         ex src (.cast true false) (some .int) .operand 36 (some ⟨36, 37⟩) id [
          ex src .other (some .int) .operand 36 (some ⟨36, 37⟩) (fun f => { f with lvalue := true }) []]]]]]]
    expected := "// DREDD PRELUDE START\n// If this has been inserted at an inappropriate place in a source file,\n// declare a placeholder function with the following signature to\n// mandate where the prelude should be placed:\n//\n// void __dredd_prelude_start();\n//\n#include <inttypes.h>\n#include <stdatomic.h>\n#include <stdbool.h>\n#include <stdio.h>\n#include <stdlib.h>\n#include <string.h>\n\n#ifdef _MSC_VER\n#define thread_local __declspec(thread)\n#elif __APPLE__\n#define thread_local __thread\n#else\n#include <threads.h>\n#endif\n\nstatic thread_local int __dredd_some_mutation_enabled = 1;\nstatic bool __dredd_enabled_mutation(int local_mutation_id) {\n  static thread_local int initialized = 0;\n  static thread_local uint64_t enabled_bitset[1];\n  if (!initialized) {\n    int some_mutation_enabled = 0;\n    const char* dredd_environment_variable = getenv(\"DREDD_ENABLED_MUTATION\");\n    if (dredd_environment_variable) {\n      char* temp = malloc(strlen(dredd_environment_variable) + 1);\n      strcpy(temp, dredd_environment_variable);\n      char* token;\n      token = strtok(temp, \",\");\n      while(token) {\n        int value = atoi(token);\n        int local_value = value - 0;\n        if (local_value >= 0 && local_value < 20) {\n          enabled_bitset[local_value / 64] |= ((uint64_t) 1 << (local_value % 64));\n          some_mutation_enabled = 1;\n        }\n        token = strtok(NULL, \",\");\n      }\n      free(temp);\n    }\n    initialized = 1;\n    __dredd_some_mutation_enabled = some_mutation_enabled;\n  }\n  return enabled_bitset[local_mutation_id / 64] & ((uint64_t) 1 << (local_mutation_id % 64));\n}\n\nstatic int __dredd_replace_unary_operator_Minus_int(int arg, int local_mutation_id) {\n  if (!__dredd_some_mutation_enabled) return -arg;\n  if (__dredd_enabled_mutation(local_mutation_id + 0)) return ~arg;\n  if (__dredd_enabled_mutation(local_mutation_id + 1)) return !arg;\n  return -arg;\n}\n\nstatic int __dredd_replace_expr_int_one(int arg, int local_mutation_id) {\n  if (!__dredd_some_mutation_enabled) return arg;\n  if (__dredd_enabled_mutation(local_mutation_id + 0)) return ~(arg);\n  if (__dredd_enabled_mutation(local_mutation_id + 1)) return 0;\n  if (__dredd_enabled_mutation(local_mutation_id + 2)) return -1;\n  return arg;\n}\n\nstatic int __dredd_replace_expr_int_lvalue(int* arg, int local_mutation_id) {\n  if (!__dredd_some_mutation_enabled) return (*arg);\n  if (__dredd_enabled_mutation(local_mutation_id + 0)) return ++((*arg));\n  if (__dredd_enabled_mutation(local_mutation_id + 1)) return --((*arg));\n  return (*arg);\n}\n\nstatic int __dredd_replace_expr_int(int arg, int local_mutation_id) {\n  if (!__dredd_some_mutation_enabled) return arg;\n  if (__dredd_enabled_mutation(local_mutation_id + 0)) return !(arg);\n  if (__dredd_enabled_mutation(local_mutation_id + 1)) return ~(arg);\n  if (__dredd_enabled_mutation(local_mutation_id + 2)) return -(arg);\n  if (__dredd_enabled_mutation(local_mutation_id + 3)) return 0;\n  if (__dredd_enabled_mutation(local_mutation_id + 4)) return 1;\n  if (__dredd_enabled_mutation(local_mutation_id + 5)) return -1;\n  return arg;\n}\n\nint main() {\n  int x = __dredd_replace_expr_int_one(1, 0);\n  if (!__dredd_enabled_mutation(19)) { return __dredd_replace_expr_int(__dredd_replace_unary_operator_Minus_int(__dredd_replace_expr_int(__dredd_replace_expr_int_lvalue(&(x), 3), 5), 11), 13); }\n}\n"
    noopt := "// DREDD PRELUDE START\n// If this has been inserted at an inappropriate place in a source file,\n// declare a placeholder function with the following signature to\n// mandate where the prelude should be placed:\n//\n// void __dredd_prelude_start();\n//\n#include <inttypes.h>\n#include <stdatomic.h>\n#include <stdbool.h>\n#include <stdio.h>\n#include <stdlib.h>\n#include <string.h>\n\n#ifdef _MSC_VER\n#define thread_local __declspec(thread)\n#elif __APPLE__\n#define thread_local __thread\n#else\n#include <threads.h>\n#endif\n\nstatic thread_local int __dredd_some_mutation_enabled = 1;\nstatic bool __dredd_enabled_mutation(int local_mutation_id) {\n  static thread_local int initialized = 0;\n  static thread_local uint64_t enabled_bitset[1];\n  if (!initialized) {\n    int some_mutation_enabled = 0;\n    const char* dredd_environment_variable = getenv(\"DREDD_ENABLED_MUTATION\");\n    if (dredd_environment_variable) {\n      char* temp = malloc(strlen(dredd_environment_variable) + 1);\n      strcpy(temp, dredd_environment_variable);\n      char* token;\n      token = strtok(temp, \",\");\n      while(token) {\n        int value = atoi(token);\n        int local_value = value - 0;\n        if (local_value >= 0 && local_value < 24) {\n          enabled_bitset[local_value / 64] |= ((uint64_t) 1 << (local_value % 64));\n          some_mutation_enabled = 1;\n        }\n        token = strtok(NULL, \",\");\n      }\n      free(temp);\n    }\n    initialized = 1;\n    __dredd_some_mutation_enabled = some_mutation_enabled;\n  }\n  return enabled_bitset[local_mutation_id / 64] & ((uint64_t) 1 << (local_mutation_id % 64));\n}\n\nstatic int __dredd_replace_unary_operator_Minus_int(int arg, int local_mutation_id) {\n  if (!__dredd_some_mutation_enabled) return -arg;\n  if (__dredd_enabled_mutation(local_mutation_id + 0)) return ~arg;\n  if (__dredd_enabled_mutation(local_mutation_id + 1)) return !arg;\n  if (__dredd_enabled_mutation(local_mutation_id + 2)) return arg;\n  return -arg;\n}\n\nstatic int __dredd_replace_expr_int_lvalue(int* arg, int local_mutation_id) {\n  if (!__dredd_some_mutation_enabled) return (*arg);\n  if (__dredd_enabled_mutation(local_mutation_id + 0)) return ++((*arg));\n  if (__dredd_enabled_mutation(local_mutation_id + 1)) return --((*arg));\n  return (*arg);\n}\n\nstatic int __dredd_replace_expr_int(int arg, int local_mutation_id) {\n  if (!__dredd_some_mutation_enabled) return arg;\n  if (__dredd_enabled_mutation(local_mutation_id + 0)) return !(arg);\n  if (__dredd_enabled_mutation(local_mutation_id + 1)) return ~(arg);\n  if (__dredd_enabled_mutation(local_mutation_id + 2)) return -(arg);\n  if (__dredd_enabled_mutation(local_mutation_id + 3)) return 0;\n  if (__dredd_enabled_mutation(local_mutation_id + 4)) return 1;\n  if (__dredd_enabled_mutation(local_mutation_id + 5)) return -1;\n  return arg;\n}\n\nint main() {\n  int x = __dredd_replace_expr_int(1, 0);\n  if (!__dredd_enabled_mutation(23)) { return __dredd_replace_expr_int(__dredd_replace_unary_operator_Minus_int(__dredd_replace_expr_int(__dredd_replace_expr_int_lvalue(&(x), 6), 8), 14), 17); }\n}\n" }

#guard unary_minus_c.ok

/-- test/single_file/unary_minus.cc -/
def unary_minus_cc : Case :=
  let src : Text := t!"int main() {\n  int x = 1;\n  return -x;\n}\n"
  { name := "unary_minus.cc", lang := cpp, src := src, ast :=
    .decl ⟨.tu, none⟩ [
     .decl ⟨.func false none, (some ⟨0, 40⟩)⟩ [
      st src .compound .plain (some ⟨11, 40⟩) [
       st src .declStmt .plain (some ⟨15, 25⟩) [
        .decl ⟨.var ⟨19, false, [], [], false, false, false⟩, (some ⟨15, 24⟩)⟩ [
         ex src .other (some .int) .plain 23 (some ⟨23, 24⟩) (fun f => { f with intVal := some 1, boolVal := some true, cxx11Const := true }) []]],
       st src .other .plain (some ⟨28, 37⟩) [
        ex src (.unary .minus) (some .int) .plain 35 (some ⟨35, 37⟩) (fun f => { f with opOff := some 35 }) [
         ex src (.cast true false) (some .int) .operand 36 (some ⟨36, 37⟩) id [
          ex src .other (some .int) .operand 36 (some ⟨36, 37⟩) (fun f => { f with lvalue := true }) []]]]]]]
    expected := "// DREDD PRELUDE START\n// If this has been inserted at an inappropriate place in a source file,\n// declare a placeholder function with the following signature to\n// mandate where the prelude should be placed:\n//\n// void __dredd_prelude_start();\n//\n#include <atomic>\n#include <cinttypes>\n#include <cstddef>\n#include <fstream>\n#include <functional>\n#include <sstream>\n#include <string>\n\n\n#ifdef _MSC_VER\n#define thread_local __declspec(thread)\n#elif __APPLE__\n#define thread_local __thread\n#endif\n\nstatic thread_local bool __dredd_some_mutation_enabled = true;\nstatic bool __dredd_enabled_mutation(int local_mutation_id) {\n  static thread_local bool initialized = false;\n  static thread_local uint64_t enabled_bitset[1];\n  if (!initialized) {\n    bool some_mutation_enabled = false;\n    const char* dredd_environment_variable = std::getenv(\"DREDD_ENABLED_MUTATION\");\n    if (dredd_environment_variable != nullptr) {\n      std::string contents(dredd_environment_variable);\n      while (true) {\n        size_t pos = contents.find(\",\");\n        std::string token = (pos == std::string::npos ? contents : contents.substr(0, pos));\n        if (!token.empty()) {\n          int value = std::stoi(token);\n          int local_value = value - 0;\n          if (local_value >= 0 && local_value < 20) {\n            enabled_bitset[local_value / 64] |= (static_cast<uint64_t>(1) << (local_value % 64));\n            some_mutation_enabled = true;\n          }\n        }\n        if (pos == std::string::npos) {\n          break;\n        }\n        contents.erase(0, pos + 1);\n      }\n    }\n    initialized = true;\n    __dredd_some_mutation_enabled = some_mutation_enabled;\n  }\n  return (enabled_bitset[local_mutation_id / 64] & (static_cast<uint64_t>(1) << (local_mutation_id % 64))) != 0;\n}\n\nstatic int __dredd_replace_unary_operator_Minus_int(int arg, int local_mutation_id) {\n  if (!__dredd_some_mutation_enabled) return -arg;\n  if (__dredd_enabled_mutation(local_mutation_id + 0)) return ~arg;\n  if (__dredd_enabled_mutation(local_mutation_id + 1)) return !arg;\n  return -arg;\n}\n\nstatic int __dredd_replace_expr_int_one(int arg, int local_mutation_id) {\n  if (!__dredd_some_mutation_enabled) return arg;\n  if (__dredd_enabled_mutation(local_mutation_id + 0)) return ~(arg);\n  if (__dredd_enabled_mutation(local_mutation_id + 1)) return 0;\n  if (__dredd_enabled_mutation(local_mutation_id + 2)) return -1;\n  return arg;\n}\n\nstatic int __dredd_replace_expr_int_lvalue(int& arg, int local_mutation_id) {\n  if (!__dredd_some_mutation_enabled) return arg;\n  if (__dredd_enabled_mutation(local_mutation_id + 0)) return ++(arg);\n  if (__dredd_enabled_mutation(local_mutation_id + 1)) return --(arg);\n  return arg;\n}\n\nstatic int __dredd_replace_expr_int(int arg, int local_mutation_id) {\n  if (!__dredd_some_mutation_enabled) return arg;\n  if (__dredd_enabled_mutation(local_mutation_id + 0)) return !(arg);\n  if (__dredd_enabled_mutation(local_mutation_id + 1)) return ~(arg);\n  if (__dredd_enabled_mutation(local_mutation_id + 2)) return -(arg);\n  if (__dredd_enabled_mutation(local_mutation_id + 3)) return 0;\n  if (__dredd_enabled_mutation(local_mutation_id + 4)) return 1;\n  if (__dredd_enabled_mutation(local_mutation_id + 5)) return -1;\n  return arg;\n}\n\nint main() {\n  int x = __dredd_replace_expr_int_one(1, 0);\n  if (!__dredd_enabled_mutation(19)) { return __dredd_replace_expr_int(__dredd_replace_unary_operator_Minus_int(__dredd_replace_expr_int(__dredd_replace_expr_int_lvalue(x, 3), 5), 11), 13); }\n}\n"
    noopt := "// DREDD PRELUDE START\n// If this has been inserted at an inappropriate place in a source file,\n// declare a placeholder function with the following signature to\n// mandate where the prelude should be placed:\n//\n// void __dredd_prelude_start();\n//\n#include <atomic>\n#include <cinttypes>\n#include <cstddef>\n#include <fstream>\n#include <functional>\n#include <sstream>\n#include <string>\n\n\n#ifdef _MSC_VER\n#define thread_local __declspec(thread)\n#elif __APPLE__\n#define thread_local __thread\n#endif\n\nstatic thread_local bool __dredd_some_mutation_enabled = true;\nstatic bool __dredd_enabled_mutation(int local_mutation_id) {\n  static thread_local bool initialized = false;\n  static thread_local uint64_t enabled_bitset[1];\n  if (!initialized) {\n    bool some_mutation_enabled = false;\n    const char* dredd_environment_variable = std::getenv(\"DREDD_ENABLED_MUTATION\");\n    if (dredd_environment_variable != nullptr) {\n      std::string contents(dredd_environment_variable);\n      while (true) {\n        size_t pos = contents.find(\",\");\n        std::string token = (pos == std::string::npos ? contents : contents.substr(0, pos));\n        if (!token.empty()) {\n          int value = std::stoi(token);\n          int local_value = value - 0;\n          if (local_value >= 0 && local_value < 24) {\n            enabled_bitset[local_value / 64] |= (static_cast<uint64_t>(1) << (local_value % 64));\n            some_mutation_enabled = true;\n          }\n        }\n        if (pos == std::string::npos) {\n          break;\n        }\n        contents.erase(0, pos + 1);\n      }\n    }\n    initialized = true;\n    __dredd_some_mutation_enabled = some_mutation_enabled;\n  }\n  return (enabled_bitset[local_mutation_id / 64] & (static_cast<uint64_t>(1) << (local_mutation_id % 64))) != 0;\n}\n\nstatic int __dredd_replace_unary_operator_Minus_int(int arg, int local_mutation_id) {\n  if (!__dredd_some_mutation_enabled) return -arg;\n  if (__dredd_enabled_mutation(local_mutation_id + 0)) return ~arg;\n  if (__dredd_enabled_mutation(local_mutation_id + 1)) return !arg;\n  if (__dredd_enabled_mutation(local_mutation_id + 2)) return arg;\n  return -arg;\n}\n\nstatic int __dredd_replace_expr_int_lvalue(int& arg, int local_mutation_id) {\n  if (!__dredd_some_mutation_enabled) return arg;\n  if (__dredd_enabled_mutation(local_mutation_id + 0)) return ++(arg);\n  if (__dredd_enabled_mutation(local_mutation_id + 1)) return --(arg);\n  return arg;\n}\n\nstatic int __dredd_replace_expr_int(int arg, int local_mutation_id) {\n  if (!__dredd_some_mutation_enabled) return arg;\n  if (__dredd_enabled_mutation(local_mutation_id + 0)) return !(arg);\n  if (__dredd_enabled_mutation(local_mutation_id + 1)) return ~(arg);\n  if (__dredd_enabled_mutation(local_mutation_id + 2)) return -(arg);\n  if (__dredd_enabled_mutation(local_mutation_id + 3)) return 0;\n  if (__dredd_enabled_mutation(local_mutation_id + 4)) return 1;\n  if (__dredd_enabled_mutation(local_mutation_id + 5)) return -1;\n  return arg;\n}\n\nint main() {\n  int x = __dredd_replace_expr_int(1, 0);\n  if (!__dredd_enabled_mutation(23)) { return __dredd_replace_expr_int(__dredd_replace_unary_operator_Minus_int(__dredd_replace_expr_int(__dredd_replace_expr_int_lvalue(x, 6), 8), 14), 17); }\n}\n" }

#guard unary_minus_cc.ok

/-- test/single_file/using.cc -/
def using_cc : Case :=
  let src : Text := t!"using blah = int;\n\nvoid foo() {\n  1 + 2;\n}\n"
  { name := "using.cc", lang := cpp, src := src, ast :=
    .decl ⟨.tu, none⟩ [
     .decl ⟨.other, (some ⟨0, 16⟩)⟩ [],
     .decl ⟨.func false none, (some ⟨19, 42⟩)⟩ [
      st src .compound .plain (some ⟨30, 42⟩) [
       ex src (.binary .add) (some .int) .plain 34 (some ⟨34, 39⟩) (fun f => { f with intVal := some 3, boolVal := some true, cxx11Const := true, opOff := some 36 }) [
        ex src .other (some .int) .lhs 34 (some ⟨34, 35⟩) (fun f => { f with intVal := some 1, boolVal := some true, cxx11Const := true }) [],
        ex src .other (some .int) .rhs 38 (some ⟨38, 39⟩) (fun f => { f with intVal := some 2, boolVal := some true, cxx11Const := true }) []]]]]
    expected := "using blah = int;\n\nvoid foo() {\n  1 + 2;\n}\n"
    noopt := "// DREDD PRELUDE START\n// If this has been inserted at an inappropriate place in a source file,\n// declare a placeholder function with the following signature to\n// mandate where the prelude should be placed:\n//\n// void __dredd_prelude_start();\n//\n#include <atomic>\n#include <cinttypes>\n#include <cstddef>\n#include <fstream>\n#include <functional>\n#include <sstream>\n#include <string>\n\n\n#ifdef _MSC_VER\n#define thread_local __declspec(thread)\n#elif __APPLE__\n#define thread_local __thread\n#endif\n\nstatic thread_local bool __dredd_some_mutation_enabled = true;\nstatic bool __dredd_enabled_mutation(int local_mutation_id) {\n  static thread_local bool initialized = false;\n  static thread_local uint64_t enabled_bitset[1];\n  if (!initialized) {\n    bool some_mutation_enabled = false;\n    const char* dredd_environment_variable = std::getenv(\"DREDD_ENABLED_MUTATION\");\n    if (dredd_environment_variable != nullptr) {\n      std::string contents(dredd_environment_variable);\n      while (true) {\n        size_t pos = contents.find(\",\");\n        std::string token = (pos == std::string::npos ? contents : contents.substr(0, pos));\n        if (!token.empty()) {\n          int value = std::stoi(token);\n          int local_value = value - 0;\n          if (local_value >= 0 && local_value < 25) {\n            enabled_bitset[local_value / 64] |= (static_cast<uint64_t>(1) << (local_value % 64));\n            some_mutation_enabled = true;\n          }\n        }\n        if (pos == std::string::npos) {\n          break;\n        }\n        contents.erase(0, pos + 1);\n      }\n    }\n    initialized = true;\n    __dredd_some_mutation_enabled = some_mutation_enabled;\n  }\n  return (enabled_bitset[local_mutation_id / 64] & (static_cast<uint64_t>(1) << (local_mutation_id % 64))) != 0;\n}\n\nstatic int __dredd_replace_expr_int(int arg, int local_mutation_id) {\n  if (!__dredd_some_mutation_enabled) return arg;\n  if (__dredd_enabled_mutation(local_mutation_id + 0)) return !(arg);\n  if (__dredd_enabled_mutation(local_mutation_id + 1)) return ~(arg);\n  if (__dredd_enabled_mutation(local_mutation_id + 2)) return -(arg);\n  if (__dredd_enabled_mutation(local_mutation_id + 3)) return 0;\n  if (__dredd_enabled_mutation(local_mutation_id + 4)) return 1;\n  if (__dredd_enabled_mutation(local_mutation_id + 5)) return -1;\n  return arg;\n}\n\nstatic int __dredd_replace_binary_operator_Add_arg1_int_arg2_int(int arg1, int arg2, int local_mutation_id) {\n  if (!__dredd_some_mutation_enabled) return arg1 + arg2;\n  if (__dredd_enabled_mutation(local_mutation_id + 0)) return arg1 / arg2;\n  if (__dredd_enabled_mutation(local_mutation_id + 1)) return arg1 * arg2;\n  if (__dredd_enabled_mutation(local_mutation_id + 2)) return arg1 % arg2;\n  if (__dredd_enabled_mutation(local_mutation_id + 3)) return arg1 - arg2;\n  if (__dredd_enabled_mutation(local_mutation_id + 4)) return arg1;\n  if (__dredd_enabled_mutation(local_mutation_id + 5)) return arg2;\n  return arg1 + arg2;\n}\n\nusing blah = int;\n\nvoid foo() {\n  if (!__dredd_enabled_mutation(24)) { __dredd_replace_expr_int(__dredd_replace_binary_operator_Add_arg1_int_arg2_int(__dredd_replace_expr_int(1, 0) , __dredd_replace_expr_int(2, 6), 12), 18); }\n}\n" }

#guard using_cc.ok

/-- test/single_file/volatile.c -/
def volatile_c : Case :=
  let src : Text := t!"void foo() {\n  volatile int a;\n  a += 2;\n}\n"
  { name := "volatile.c", lang := c, src := src, ast :=
    .decl ⟨.tu, none⟩ [
     .decl ⟨.func false none, (some ⟨0, 42⟩)⟩ [
      st src .compound .plain (some ⟨11, 42⟩) [
       st src .declStmt .plain (some ⟨15, 30⟩) [
        .decl ⟨.var ⟨28, false, [], [], false, false, false⟩, (some ⟨15, 29⟩)⟩ []],
       ex src (.binary .addAssign) (some .int) .plain 33 (some ⟨33, 39⟩) (fun f => { f with sideEffects := true, opOff := some 35 }) [
        ex src .other (some .int) .lhs 33 (some ⟨33, 34⟩) (fun f => { f with lvalue := true, volatile := true }) [],
        ex src .other (some .int) .rhs 38 (some ⟨38, 39⟩) (fun f => { f with intVal := some 2, boolVal := some true }) []]]]]
    expected := "// DREDD PRELUDE START\n// If this has been inserted at an inappropriate place in a source file,\n// declare a placeholder function with the following signature to\n// mandate where the prelude should be placed:\n//\n// void __dredd_prelude_start();\n//\n#include <inttypes.h>\n#include <stdatomic.h>\n#include <stdbool.h>\n#include <stdio.h>\n#include <stdlib.h>\n#include <string.h>\n\n#ifdef _MSC_VER\n#define thread_local __declspec(thread)\n#elif __APPLE__\n#define thread_local __thread\n#else\n#include <threads.h>\n#endif\n\nstatic thread_local int __dredd_some_mutation_enabled = 1;\nstatic bool __dredd_enabled_mutation(int local_mutation_id) {\n  static thread_local int initialized = 0;\n  static thread_local uint64_t enabled_bitset[1];\n  if (!initialized) {\n    int some_mutation_enabled = 0;\n    const char* dredd_environment_variable = getenv(\"DREDD_ENABLED_MUTATION\");\n    if (dredd_environment_variable) {\n      char* temp = malloc(strlen(dredd_environment_variable) + 1);\n      strcpy(temp, dredd_environment_variable);\n      char* token;\n      token = strtok(temp, \",\");\n      while(token) {\n        int value = atoi(token);\n        int local_value = value - 0;\n        if (local_value >= 0 && local_value < 16) {\n          enabled_bitset[local_value / 64] |= ((uint64_t) 1 << (local_value % 64));\n          some_mutation_enabled = 1;\n        }\n        token = strtok(NULL, \",\");\n      }\n      free(temp);\n    }\n    initialized = 1;\n    __dredd_some_mutation_enabled = some_mutation_enabled;\n  }\n  return enabled_bitset[local_mutation_id / 64] & ((uint64_t) 1 << (local_mutation_id % 64));\n}\n\nstatic int __dredd_replace_expr_int_constant(int arg, int local_mutation_id) {\n  if (!__dredd_some_mutation_enabled) return arg;\n  if (__dredd_enabled_mutation(local_mutation_id + 0)) return ~(arg);\n  if (__dredd_enabled_mutation(local_mutation_id + 1)) return -(arg);\n  if (__dredd_enabled_mutation(local_mutation_id + 2)) return 0;\n  if (__dredd_enabled_mutation(local_mutation_id + 3)) return 1;\n  if (__dredd_enabled_mutation(local_mutation_id + 4)) return -1;\n  return arg;\n}\n\nstatic int __dredd_replace_binary_operator_AddAssign_arg1_volatile_int_arg2_int(volatile int* arg1, int arg2, int local_mutation_id) {\n  if (!__dredd_some_mutation_enabled) return (*arg1) += arg2;\n  if (__dredd_enabled_mutation(local_mutation_id + 0)) return (*arg1) &= arg2;\n  if (__dredd_enabled_mutation(local_mutation_id + 1)) return (*arg1) = arg2;\n  if (__dredd_enabled_mutation(local_mutation_id + 2)) return (*arg1) /= arg2;\n  if (__dredd_enabled_mutation(local_mutation_id + 3)) return (*arg1) *= arg2;\n  if (__dredd_enabled_mutation(local_mutation_id + 4)) return (*arg1) |= arg2;\n  if (__dredd_enabled_mutation(local_mutation_id + 5)) return (*arg1) %= arg2;\n  if (__dredd_enabled_mutation(local_mutation_id + 6)) return (*arg1) <<= arg2;\n  if (__dredd_enabled_mutation(local_mutation_id + 7)) return (*arg1) >>= arg2;\n  if (__dredd_enabled_mutation(local_mutation_id + 8)) return (*arg1) -= arg2;\n  if (__dredd_enabled_mutation(local_mutation_id + 9)) return (*arg1) ^= arg2;\n  return (*arg1) += arg2;\n}\n\nvoid foo() {\n  volatile int a;\n  if (!__dredd_enabled_mutation(15)) { __dredd_replace_binary_operator_AddAssign_arg1_volatile_int_arg2_int(&(a) , __dredd_replace_expr_int_constant(2, 0), 5); }\n}\n"
    noopt := "// DREDD PRELUDE START\n// If this has been inserted at an inappropriate place in a source file,\n// declare a placeholder function with the following signature to\n// mandate where the prelude should be placed:\n//\n// void __dredd_prelude_start();\n//\n#include <inttypes.h>\n#include <stdatomic.h>\n#include <stdbool.h>\n#include <stdio.h>\n#include <stdlib.h>\n#include <string.h>\n\n#ifdef _MSC_VER\n#define thread_local __declspec(thread)\n#elif __APPLE__\n#define thread_local __thread\n#else\n#include <threads.h>\n#endif\n\nstatic thread_local int __dredd_some_mutation_enabled = 1;\nstatic bool __dredd_enabled_mutation(int local_mutation_id) {\n  static thread_local int initialized = 0;\n  static thread_local uint64_t enabled_bitset[1];\n  if (!initialized) {\n    int some_mutation_enabled = 0;\n    const char* dredd_environment_variable = getenv(\"DREDD_ENABLED_MUTATION\");\n    if (dredd_environment_variable) {\n      char* temp = malloc(strlen(dredd_environment_variable) + 1);\n      strcpy(temp, dredd_environment_variable);\n      char* token;\n      token = strtok(temp, \",\");\n      while(token) {\n        int value = atoi(token);\n        int local_value = value - 0;\n        if (local_value >= 0 && local_value < 23) {\n          enabled_bitset[local_value / 64] |= ((uint64_t) 1 << (local_value % 64));\n          some_mutation_enabled = 1;\n        }\n        token = strtok(NULL, \",\");\n      }\n      free(temp);\n    }\n    initialized = 1;\n    __dredd_some_mutation_enabled = some_mutation_enabled;\n  }\n  return enabled_bitset[local_mutation_id / 64] & ((uint64_t) 1 << (local_mutation_id % 64));\n}\n\nstatic int __dredd_replace_expr_int(int arg, int local_mutation_id) {\n  if (!__dredd_some_mutation_enabled) return arg;\n  if (__dredd_enabled_mutation(local_mutation_id + 0)) return !(arg);\n  if (__dredd_enabled_mutation(local_mutation_id + 1)) return ~(arg);\n  if (__dredd_enabled_mutation(local_mutation_id + 2)) return -(arg);\n  if (__dredd_enabled_mutation(local_mutation_id + 3)) return 0;\n  if (__dredd_enabled_mutation(local_mutation_id + 4)) return 1;\n  if (__dredd_enabled_mutation(local_mutation_id + 5)) return -1;\n  return arg;\n}\n\nstatic int __dredd_replace_binary_operator_AddAssign_arg1_volatile_int_arg2_int(volatile int* arg1, int arg2, int local_mutation_id) {\n  if (!__dredd_some_mutation_enabled) return (*arg1) += arg2;\n  if (__dredd_enabled_mutation(local_mutation_id + 0)) return (*arg1) &= arg2;\n  if (__dredd_enabled_mutation(local_mutation_id + 1)) return (*arg1) = arg2;\n  if (__dredd_enabled_mutation(local_mutation_id + 2)) return (*arg1) /= arg2;\n  if (__dredd_enabled_mutation(local_mutation_id + 3)) return (*arg1) *= arg2;\n  if (__dredd_enabled_mutation(local_mutation_id + 4)) return (*arg1) |= arg2;\n  if (__dredd_enabled_mutation(local_mutation_id + 5)) return (*arg1) %= arg2;\n  if (__dredd_enabled_mutation(local_mutation_id + 6)) return (*arg1) <<= arg2;\n  if (__dredd_enabled_mutation(local_mutation_id + 7)) return (*arg1) >>= arg2;\n  if (__dredd_enabled_mutation(local_mutation_id + 8)) return (*arg1) -= arg2;\n  if (__dredd_enabled_mutation(local_mutation_id + 9)) return (*arg1) ^= arg2;\n  return (*arg1) += arg2;\n}\n\nvoid foo() {\n  volatile int a;\n  if (!__dredd_enabled_mutation(22)) { __dredd_replace_expr_int(__dredd_replace_binary_operator_AddAssign_arg1_volatile_int_arg2_int(&(a) , __dredd_replace_expr_int(2, 0), 6), 16); }\n}\n" }

#guard volatile_c.ok

/-- test/single_file/bitfield_reference_passing.cc -/
def bitfield_reference_passing_cc : Case :=
  let src : Text := t!"template<typename T> void bloop(T& x) { }\n\nstruct foo {\n  int b : 2;\n};\n\nint main() {\n  const foo d = foo();\n  bloop(d.b);\n}\n"
  { name := "bitfield_reference_passing.cc", lang := cpp, src := src, ast :=
    .decl ⟨.tu, none⟩ [
     .decl ⟨.other, (some ⟨0, 41⟩)⟩ [
      .decl ⟨.func false none, (some ⟨21, 41⟩)⟩ [
       .decl ⟨.parm, (some ⟨32, 36⟩)⟩ [],
       st src .compound .plain (some ⟨38, 41⟩) []]],
     .decl ⟨.other, (some ⟨43, 70⟩)⟩ [
      .decl ⟨.field false [], (some ⟨58, 67⟩)⟩ []],
     .decl ⟨.func false none, (some ⟨73, 124⟩)⟩ [
      st src .compound .plain (some ⟨84, 124⟩) [
       st src .declStmt .plain (some ⟨88, 108⟩) [
        .decl ⟨.var ⟨98, false, [], [], false, false, false⟩, (some ⟨88, 107⟩)⟩ [
         ex src .construct none .plain 102 (some ⟨102, 107⟩) id []]],
       ex src .cleanups none .plain 111 (some ⟨111, 121⟩) (fun f => { f with sideEffects := true }) [
        ex src (.call none false false) none .plain 111 (some ⟨111, 121⟩) (fun f => { f with sideEffects := true }) [
         ex src (.cast true false) none .plain 111 (some ⟨111, 116⟩) (fun f => { f with anyPointer := true, pointer := true }) [
          ex src .other none .operand 111 (some ⟨111, 116⟩) (fun f => { f with lvalue := true }) []],
         ex src .temporary (some .int) .callArg 117 (some ⟨117, 120⟩) (fun f => { f with lvalue := true, const := true }) [
          ex src (.cast true false) (some .int) .operand 117 (some ⟨117, 120⟩) id [
           ex src .member (some .int) .operand 117 (some ⟨117, 120⟩) (fun f => { f with lvalue := true, const := true, bitField := true }) [
            ex src .other none .base 117 (some ⟨117, 118⟩) (fun f => { f with lvalue := true }) []]]]]]]]]
    expected := "// DREDD PRELUDE START\n// If this has been inserted at an inappropriate place in a source file,\n// declare a placeholder function with the following signature to\n// mandate where the prelude should be placed:\n//\n// void __dredd_prelude_start();\n//\n#include <atomic>\n#include <cinttypes>\n#include <cstddef>\n#include <fstream>\n#include <functional>\n#include <sstream>\n#include <string>\n\n\n#ifdef _MSC_VER\n#define thread_local __declspec(thread)\n#elif __APPLE__\n#define thread_local __thread\n#endif\n\nstatic thread_local bool __dredd_some_mutation_enabled = true;\nstatic bool __dredd_enabled_mutation(int local_mutation_id) {\n  static thread_local bool initialized = false;\n  static thread_local uint64_t enabled_bitset[1];\n  if (!initialized) {\n    bool some_mutation_enabled = false;\n    const char* dredd_environment_variable = std::getenv(\"DREDD_ENABLED_MUTATION\");\n    if (dredd_environment_variable != nullptr) {\n      std::string contents(dredd_environment_variable);\n      while (true) {\n        size_t pos = contents.find(\",\");\n        std::string token = (pos == std::string::npos ? contents : contents.substr(0, pos));\n        if (!token.empty()) {\n          int value = std::stoi(token);\n          int local_value = value - 0;\n          if (local_value >= 0 && local_value < 1) {\n            enabled_bitset[local_value / 64] |= (static_cast<uint64_t>(1) << (local_value % 64));\n            some_mutation_enabled = true;\n          }\n        }\n        if (pos == std::string::npos) {\n          break;\n        }\n        contents.erase(0, pos + 1);\n      }\n    }\n    initialized = true;\n    __dredd_some_mutation_enabled = some_mutation_enabled;\n  }\n  return (enabled_bitset[local_mutation_id / 64] & (static_cast<uint64_t>(1) << (local_mutation_id % 64))) != 0;\n}\n\ntemplate<typename T> void bloop(T& x) { }\n\nstruct foo {\n  int b : 2;\n};\n\nint main() {\n  const foo d = foo();\n  if (!__dredd_enabled_mutation(0)) { bloop(d.b); }\n}\n"
    noopt := "// DREDD PRELUDE START\n// If this has been inserted at an inappropriate place in a source file,\n// declare a placeholder function with the following signature to\n// mandate where the prelude should be placed:\n//\n// void __dredd_prelude_start();\n//\n#include <atomic>\n#include <cinttypes>\n#include <cstddef>\n#include <fstream>\n#include <functional>\n#include <sstream>\n#include <string>\n\n\n#ifdef _MSC_VER\n#define thread_local __declspec(thread)\n#elif __APPLE__\n#define thread_local __thread\n#endif\n\nstatic thread_local bool __dredd_some_mutation_enabled = true;\nstatic bool __dredd_enabled_mutation(int local_mutation_id) {\n  static thread_local bool initialized = false;\n  static thread_local uint64_t enabled_bitset[1];\n  if (!initialized) {\n    bool some_mutation_enabled = false;\n    const char* dredd_environment_variable = std::getenv(\"DREDD_ENABLED_MUTATION\");\n    if (dredd_environment_variable != nullptr) {\n      std::string contents(dredd_environment_variable);\n      while (true) {\n        size_t pos = contents.find(\",\");\n        std::string token = (pos == std::string::npos ? contents : contents.substr(0, pos));\n        if (!token.empty()) {\n          int value = std::stoi(token);\n          int local_value = value - 0;\n          if (local_value >= 0 && local_value < 1) {\n            enabled_bitset[local_value / 64] |= (static_cast<uint64_t>(1) << (local_value % 64));\n            some_mutation_enabled = true;\n          }\n        }\n        if (pos == std::string::npos) {\n          break;\n        }\n        contents.erase(0, pos + 1);\n      }\n    }\n    initialized = true;\n    __dredd_some_mutation_enabled = some_mutation_enabled;\n  }\n  return (enabled_bitset[local_mutation_id / 64] & (static_cast<uint64_t>(1) << (local_mutation_id % 64))) != 0;\n}\n\ntemplate<typename T> void bloop(T& x) { }\n\nstruct foo {\n  int b : 2;\n};\n\nint main() {\n  const foo d = foo();\n  if (!__dredd_enabled_mutation(0)) { bloop(d.b); }\n}\n" }

#guard bitfield_reference_passing_cc.ok

/-- test/single_file/const_expr.cc -/
def const_expr_cc : Case :=
  let src : Text := t!"double foo(const double &x) {\n  return x;\n}\n"
  { name := "const_expr.cc", lang := cpp, src := src, ast :=
    .decl ⟨.tu, none⟩ [
     .decl ⟨.func false none, (some ⟨0, 43⟩)⟩ [
      .decl ⟨.parm, (some ⟨11, 26⟩)⟩ [],
      st src .compound .plain (some ⟨28, 43⟩) [
       st src .other .plain (some ⟨32, 40⟩) [
        ex src (.cast true false) (some .double) .plain 39 (some ⟨39, 40⟩) id [
         ex src .other (some .double) .operand 39 (some ⟨39, 40⟩) (fun f => { f with lvalue := true, const := true }) []]]]]]
    expected := "// DREDD PRELUDE START\n// If this has been inserted at an inappropriate place in a source file,\n// declare a placeholder function with the following signature to\n// mandate where the prelude should be placed:\n//\n// void __dredd_prelude_start();\n//\n#include <atomic>\n#include <cinttypes>\n#include <cstddef>\n#include <fstream>\n#include <functional>\n#include <sstream>\n#include <string>\n\n\n#ifdef _MSC_VER\n#define thread_local __declspec(thread)\n#elif __APPLE__\n#define thread_local __thread\n#endif\n\nstatic thread_local bool __dredd_some_mutation_enabled = true;\nstatic bool __dredd_enabled_mutation(int local_mutation_id) {\n  static thread_local bool initialized = false;\n  static thread_local uint64_t enabled_bitset[1];\n  if (!initialized) {\n    bool some_mutation_enabled = false;\n    const char* dredd_environment_variable = std::getenv(\"DREDD_ENABLED_MUTATION\");\n    if (dredd_environment_variable != nullptr) {\n      std::string contents(dredd_environment_variable);\n      while (true) {\n        size_t pos = contents.find(\",\");\n        std::string token = (pos == std::string::npos ? contents : contents.substr(0, pos));\n        if (!token.empty()) {\n          int value = std::stoi(token);\n          int local_value = value - 0;\n          if (local_value >= 0 && local_value < 5) {\n            enabled_bitset[local_value / 64] |= (static_cast<uint64_t>(1) << (local_value % 64));\n            some_mutation_enabled = true;\n          }\n        }\n        if (pos == std::string::npos) {\n          break;\n        }\n        contents.erase(0, pos + 1);\n      }\n    }\n    initialized = true;\n    __dredd_some_mutation_enabled = some_mutation_enabled;\n  }\n  return (enabled_bitset[local_mutation_id / 64] & (static_cast<uint64_t>(1) << (local_mutation_id % 64))) != 0;\n}\n\nstatic double __dredd_replace_expr_double(double arg, int local_mutation_id) {\n  if (!__dredd_some_mutation_enabled) return arg;\n  if (__dredd_enabled_mutation(local_mutation_id + 0)) return -(arg);\n  if (__dredd_enabled_mutation(local_mutation_id + 1)) return 0.0;\n  if (__dredd_enabled_mutation(local_mutation_id + 2)) return 1.0;\n  if (__dredd_enabled_mutation(local_mutation_id + 3)) return -1.0;\n  return arg;\n}\n\ndouble foo(const double &x) {\n  if (!__dredd_enabled_mutation(4)) { return __dredd_replace_expr_double(x, 0); }\n}\n"
    noopt := "// DREDD PRELUDE START\n// If this has been inserted at an inappropriate place in a source file,\n// declare a placeholder function with the following signature to\n// mandate where the prelude should be placed:\n//\n// void __dredd_prelude_start();\n//\n#include <atomic>\n#include <cinttypes>\n#include <cstddef>\n#include <fstream>\n#include <functional>\n#include <sstream>\n#include <string>\n\n\n#ifdef _MSC_VER\n#define thread_local __declspec(thread)\n#elif __APPLE__\n#define thread_local __thread\n#endif\n\nstatic thread_local bool __dredd_some_mutation_enabled = true;\nstatic bool __dredd_enabled_mutation(int local_mutation_id) {\n  static thread_local bool initialized = false;\n  static thread_local uint64_t enabled_bitset[1];\n  if (!initialized) {\n    bool some_mutation_enabled = false;\n    const char* dredd_environment_variable = std::getenv(\"DREDD_ENABLED_MUTATION\");\n    if (dredd_environment_variable != nullptr) {\n      std::string contents(dredd_environment_variable);\n      while (true) {\n        size_t pos = contents.find(\",\");\n        std::string token = (pos == std::string::npos ? contents : contents.substr(0, pos));\n        if (!token.empty()) {\n          int value = std::stoi(token);\n          int local_value = value - 0;\n          if (local_value >= 0 && local_value < 5) {\n            enabled_bitset[local_value / 64] |= (static_cast<uint64_t>(1) << (local_value % 64));\n            some_mutation_enabled = true;\n          }\n        }\n        if (pos == std::string::npos) {\n          break;\n        }\n        contents.erase(0, pos + 1);\n      }\n    }\n    initialized = true;\n    __dredd_some_mutation_enabled = some_mutation_enabled;\n  }\n  return (enabled_bitset[local_mutation_id / 64] & (static_cast<uint64_t>(1) << (local_mutation_id % 64))) != 0;\n}\n\nstatic double __dredd_replace_expr_double(double arg, int local_mutation_id) {\n  if (!__dredd_some_mutation_enabled) return arg;\n  if (__dredd_enabled_mutation(local_mutation_id + 0)) return -(arg);\n  if (__dredd_enabled_mutation(local_mutation_id + 1)) return 0.0;\n  if (__dredd_enabled_mutation(local_mutation_id + 2)) return 1.0;\n  if (__dredd_enabled_mutation(local_mutation_id + 3)) return -1.0;\n  return arg;\n}\n\ndouble foo(const double &x) {\n  if (!__dredd_enabled_mutation(4)) { return __dredd_replace_expr_double(x, 0); }\n}\n" }

#guard const_expr_cc.ok

/-- test/single_file/constexpr_if1.cc -/
def constexpr_if1_cc : Case :=
  let src : Text := t!"#include <iostream>\n\ntemplate <int a> void foo() {\n  if constexpr (a) {\n    std::cout << \"Hi\";\n  };\n}\n\nint main() {\n  foo<0>;\n}\n"
  { name := "constexpr_if1.cc", lang := cpp, src := src, ast :=
    .decl ⟨.tu, none⟩ [
     .decl ⟨.other, (some ⟨21, 101⟩)⟩ [
      .decl ⟨.func false none, (some ⟨38, 101⟩)⟩ [
       st src .compound .plain (some ⟨49, 101⟩) [
        st src (.if_ true) .plain (some ⟨53, 98⟩) [
         ex src (.cast true false) (some .bool) .ifCond 67 (some ⟨67, 68⟩) id [
          ex src .other (some .int) .operand 67 (some ⟨67, 68⟩) id []],
         st src .compound .plain (some ⟨70, 98⟩) [
          ex src (.call none false false) none .plain 76 (some ⟨76, 93⟩) (fun f => { f with lvalue := true, sideEffects := true }) []]],
        st src .null .plain (some ⟨98, 99⟩) []]]],
     .decl ⟨.func false none, (some ⟨103, 127⟩)⟩ [
      st src .compound .plain (some ⟨114, 127⟩) [
       ex src .other none .plain 118 (some ⟨118, 124⟩) (fun f => { f with lvalue := true }) [
        .other .templateArg [
         ex src .constant (some .int) .plain 122 (some ⟨122, 123⟩) id []]]]]]
    expected := "// DREDD PRELUDE START\n// If this has been inserted at an inappropriate place in a source file,\n// declare a placeholder function with the following signature to\n// mandate where the prelude should be placed:\n//\n// void __dredd_prelude_start();\n//\n#include <atomic>\n#include <cinttypes>\n#include <cstddef>\n#include <fstream>\n#include <functional>\n#include <sstream>\n#include <string>\n\n\n#ifdef _MSC_VER\n#define thread_local __declspec(thread)\n#elif __APPLE__\n#define thread_local __thread\n#endif\n\nstatic thread_local bool __dredd_some_mutation_enabled = true;\nstatic bool __dredd_enabled_mutation(int local_mutation_id) {\n  static thread_local bool initialized = false;\n  static thread_local uint64_t enabled_bitset[1];\n  if (!initialized) {\n    bool some_mutation_enabled = false;\n    const char* dredd_environment_variable = std::getenv(\"DREDD_ENABLED_MUTATION\");\n    if (dredd_environment_variable != nullptr) {\n      std::string contents(dredd_environment_variable);\n      while (true) {\n        size_t pos = contents.find(\",\");\n        std::string token = (pos == std::string::npos ? contents : contents.substr(0, pos));\n        if (!token.empty()) {\n          int value = std::stoi(token);\n          int local_value = value - 0;\n          if (local_value >= 0 && local_value < 2) {\n            enabled_bitset[local_value / 64] |= (static_cast<uint64_t>(1) << (local_value % 64));\n            some_mutation_enabled = true;\n          }\n        }\n        if (pos == std::string::npos) {\n          break;\n        }\n        contents.erase(0, pos + 1);\n      }\n    }\n    initialized = true;\n    __dredd_some_mutation_enabled = some_mutation_enabled;\n  }\n  return (enabled_bitset[local_mutation_id / 64] & (static_cast<uint64_t>(1) << (local_mutation_id % 64))) != 0;\n}\n\n#include <iostream>\n\ntemplate <int a> void foo() {\n  if (!__dredd_enabled_mutation(1)) { if constexpr (a) {\n    if (!__dredd_enabled_mutation(0)) { std::cout << \"Hi\"; }\n  }; }\n}\n\nint main() {\n  foo<0>;\n}\n"
    noopt := "// DREDD PRELUDE START\n// If this has been inserted at an inappropriate place in a source file,\n// declare a placeholder function with the following signature to\n// mandate where the prelude should be placed:\n//\n// void __dredd_prelude_start();\n//\n#include <atomic>\n#include <cinttypes>\n#include <cstddef>\n#include <fstream>\n#include <functional>\n#include <sstream>\n#include <string>\n\n\n#ifdef _MSC_VER\n#define thread_local __declspec(thread)\n#elif __APPLE__\n#define thread_local __thread\n#endif\n\nstatic thread_local bool __dredd_some_mutation_enabled = true;\nstatic bool __dredd_enabled_mutation(int local_mutation_id) {\n  static thread_local bool initialized = false;\n  static thread_local uint64_t enabled_bitset[1];\n  if (!initialized) {\n    bool some_mutation_enabled = false;\n    const char* dredd_environment_variable = std::getenv(\"DREDD_ENABLED_MUTATION\");\n    if (dredd_environment_variable != nullptr) {\n      std::string contents(dredd_environment_variable);\n      while (true) {\n        size_t pos = contents.find(\",\");\n        std::string token = (pos == std::string::npos ? contents : contents.substr(0, pos));\n        if (!token.empty()) {\n          int value = std::stoi(token);\n          int local_value = value - 0;\n          if (local_value >= 0 && local_value < 3) {\n            enabled_bitset[local_value / 64] |= (static_cast<uint64_t>(1) << (local_value % 64));\n            some_mutation_enabled = true;\n          }\n        }\n        if (pos == std::string::npos) {\n          break;\n        }\n        contents.erase(0, pos + 1);\n      }\n    }\n    initialized = true;\n    __dredd_some_mutation_enabled = some_mutation_enabled;\n  }\n  return (enabled_bitset[local_mutation_id / 64] & (static_cast<uint64_t>(1) << (local_mutation_id % 64))) != 0;\n}\n\n#include <iostream>\n\ntemplate <int a> void foo() {\n  if (!__dredd_enabled_mutation(1)) { if constexpr (a) {\n    if (!__dredd_enabled_mutation(0)) { std::cout << \"Hi\"; }\n  }; }\n}\n\nint main() {\n  if (!__dredd_enabled_mutation(2)) { foo<0>; }\n}\n" }

#guard constexpr_if1_cc.ok

/-- test/single_file/construct_struct_from_enum_constant.cc -/
def construct_struct_from_enum_constant_cc : Case :=
  let src : Text := t!"struct foo {\n  foo(int) {};\n  operator int();\n};\n\nenum baz { bar };\n\nint main() { \n  0 ? foo(0) : baz::bar;\n}\n"
  { name := "construct_struct_from_enum_constant.cc", lang := cpp, src := src, ast :=
    .decl ⟨.tu, none⟩ [
     .decl ⟨.other, (some ⟨0, 47⟩)⟩ [
      .decl ⟨.func false none, (some ⟨15, 26⟩)⟩ [
       .decl ⟨.parm, (some ⟨19, 22⟩)⟩ [],
       st src .compound .plain (some ⟨24, 26⟩) []],
      .decl ⟨.func false none, (some ⟨30, 44⟩)⟩ []],
     .decl ⟨.other, (some ⟨50, 66⟩)⟩ [
      .decl ⟨.other, (some ⟨61, 64⟩)⟩ []],
     .decl ⟨.func false none, (some ⟨69, 109⟩)⟩ [
      st src .compound .plain (some ⟨80, 109⟩) [
       ex src .cleanups none .plain 85 (some ⟨85, 106⟩) (fun f => { f with sideEffects := true }) [
        ex src .other none .plain 85 (some ⟨85, 106⟩) (fun f => { f with sideEffects := true }) [
         ex src (.cast true false) (some .bool) .plain 85 (some ⟨85, 86⟩) (fun f => { f with intVal := some 0, boolVal := some false, cxx11Const := true, nullConst := true }) [
          ex src .other (some .int) .operand 85 (some ⟨85, 86⟩) (fun f => { f with intVal := some 0, boolVal := some false, cxx11Const := true, nullConst := true }) []],
         ex src (.cast false false) none .plain 89 (some ⟨89, 95⟩) (fun f => { f with sideEffects := true }) [
          ex src .construct none .operand 89 (some ⟨89, 95⟩) (fun f => { f with sideEffects := true }) [
           ex src .other (some .int) .callArg 93 (some ⟨93, 94⟩) (fun f => { f with intVal := some 0, boolVal := some false, cxx11Const := true, nullConst := true }) []]],
         ex src (.cast true false) none .plain 98 (some ⟨98, 106⟩) (fun f => { f with sideEffects := true }) [
          ex src .construct none .operand 98 (some ⟨98, 106⟩) (fun f => { f with sideEffects := true }) [
           ex src (.cast true false) (some .int) .plain 98 (some ⟨98, 106⟩) (fun f => { f with intVal := some 0, boolVal := some false, cxx11Const := true }) [
            ex src .enumRef none .operand 98 (some ⟨98, 106⟩) (fun f => { f with boolVal := some false, cxx11Const := true }) []]]]]]]]]
    expected := "// DREDD PRELUDE START\n// If this has been inserted at an inappropriate place in a source file,\n// declare a placeholder function with the following signature to\n// mandate where the prelude should be placed:\n//\n// void __dredd_prelude_start();\n//\n#include <atomic>\n#include <cinttypes>\n#include <cstddef>\n#include <fstream>\n#include <functional>\n#include <sstream>\n#include <string>\n\n\n#ifdef _MSC_VER\n#define thread_local __declspec(thread)\n#elif __APPLE__\n#define thread_local __thread\n#endif\n\nstatic thread_local bool __dredd_some_mutation_enabled = true;\nstatic bool __dredd_enabled_mutation(int local_mutation_id) {\n  static thread_local bool initialized = false;\n  static thread_local uint64_t enabled_bitset[1];\n  if (!initialized) {\n    bool some_mutation_enabled = false;\n    const char* dredd_environment_variable = std::getenv(\"DREDD_ENABLED_MUTATION\");\n    if (dredd_environment_variable != nullptr) {\n      std::string contents(dredd_environment_variable);\n      while (true) {\n        size_t pos = contents.find(\",\");\n        std::string token = (pos == std::string::npos ? contents : contents.substr(0, pos));\n        if (!token.empty()) {\n          int value = std::stoi(token);\n          int local_value = value - 0;\n          if (local_value >= 0 && local_value < 4) {\n            enabled_bitset[local_value / 64] |= (static_cast<uint64_t>(1) << (local_value % 64));\n            some_mutation_enabled = true;\n          }\n        }\n        if (pos == std::string::npos) {\n          break;\n        }\n        contents.erase(0, pos + 1);\n      }\n    }\n    initialized = true;\n    __dredd_some_mutation_enabled = some_mutation_enabled;\n  }\n  return (enabled_bitset[local_mutation_id / 64] & (static_cast<uint64_t>(1) << (local_mutation_id % 64))) != 0;\n}\n\nstatic int __dredd_replace_expr_int_zero(int arg, int local_mutation_id) {\n  if (!__dredd_some_mutation_enabled) return arg;\n  if (__dredd_enabled_mutation(local_mutation_id + 0)) return 1;\n  if (__dredd_enabled_mutation(local_mutation_id + 1)) return -1;\n  return arg;\n}\n\nstatic bool __dredd_replace_expr_bool_false(bool arg, int local_mutation_id) {\n  if (!__dredd_some_mutation_enabled) return arg;\n  if (__dredd_enabled_mutation(local_mutation_id + 0)) return true;\n  return arg;\n}\n\nstruct foo {\n  foo(int) {};\n  operator int();\n};\n\nenum baz { bar };\n\nint main() { \n  if (!__dredd_enabled_mutation(3)) { __dredd_replace_expr_bool_false(0, 0) ? foo(__dredd_replace_expr_int_zero(0, 1)) : baz::bar; }\n}\n"
    noopt := "// DREDD PRELUDE START\n// If this has been inserted at an inappropriate place in a source file,\n// declare a placeholder function with the following signature to\n// mandate where the prelude should be placed:\n//\n// void __dredd_prelude_start();\n//\n#include <atomic>\n#include <cinttypes>\n#include <cstddef>\n#include <fstream>\n#include <functional>\n#include <sstream>\n#include <string>\n\n\n#ifdef _MSC_VER\n#define thread_local __declspec(thread)\n#elif __APPLE__\n#define thread_local __thread\n#endif\n\nstatic thread_local bool __dredd_some_mutation_enabled = true;\nstatic bool __dredd_enabled_mutation(int local_mutation_id) {\n  static thread_local bool initialized = false;\n  static thread_local uint64_t enabled_bitset[1];\n  if (!initialized) {\n    bool some_mutation_enabled = false;\n    const char* dredd_environment_variable = std::getenv(\"DREDD_ENABLED_MUTATION\");\n    if (dredd_environment_variable != nullptr) {\n      std::string contents(dredd_environment_variable);\n      while (true) {\n        size_t pos = contents.find(\",\");\n        std::string token = (pos == std::string::npos ? contents : contents.substr(0, pos));\n        if (!token.empty()) {\n          int value = std::stoi(token);\n          int local_value = value - 0;\n          if (local_value >= 0 && local_value < 16) {\n            enabled_bitset[local_value / 64] |= (static_cast<uint64_t>(1) << (local_value % 64));\n            some_mutation_enabled = true;\n          }\n        }\n        if (pos == std::string::npos) {\n          break;\n        }\n        contents.erase(0, pos + 1);\n      }\n    }\n    initialized = true;\n    __dredd_some_mutation_enabled = some_mutation_enabled;\n  }\n  return (enabled_bitset[local_mutation_id / 64] & (static_cast<uint64_t>(1) << (local_mutation_id % 64))) != 0;\n}\n\nstatic int __dredd_replace_expr_int(int arg, int local_mutation_id) {\n  if (!__dredd_some_mutation_enabled) return arg;\n  if (__dredd_enabled_mutation(local_mutation_id + 0)) return !(arg);\n  if (__dredd_enabled_mutation(local_mutation_id + 1)) return ~(arg);\n  if (__dredd_enabled_mutation(local_mutation_id + 2)) return -(arg);\n  if (__dredd_enabled_mutation(local_mutation_id + 3)) return 0;\n  if (__dredd_enabled_mutation(local_mutation_id + 4)) return 1;\n  if (__dredd_enabled_mutation(local_mutation_id + 5)) return -1;\n  return arg;\n}\n\nstatic bool __dredd_replace_expr_bool(bool arg, int local_mutation_id) {\n  if (!__dredd_some_mutation_enabled) return arg;\n  if (__dredd_enabled_mutation(local_mutation_id + 0)) return !(arg);\n  if (__dredd_enabled_mutation(local_mutation_id + 1)) return true;\n  if (__dredd_enabled_mutation(local_mutation_id + 2)) return false;\n  return arg;\n}\n\nstruct foo {\n  foo(int) {};\n  operator int();\n};\n\nenum baz { bar };\n\nint main() { \n  if (!__dredd_enabled_mutation(15)) { __dredd_replace_expr_bool(__dredd_replace_expr_int(0, 0), 6) ? foo(__dredd_replace_expr_int(0, 9)) : baz::bar; }\n}\n" }

#guard construct_struct_from_enum_constant_cc.ok

/-- test/single_file/decltype_cast.cc -/
def decltype_cast_cc : Case :=
  let src : Text := t!"void foo() {\n  unsigned x = (decltype(1)) 'a';\n}\n"
  { name := "decltype_cast.cc", lang := cpp, src := src, ast :=
    .decl ⟨.tu, none⟩ [
     .decl ⟨.func false none, (some ⟨0, 48⟩)⟩ [
      st src .compound .plain (some ⟨11, 48⟩) [
       st src .declStmt .plain (some ⟨15, 46⟩) [
        .decl ⟨.var ⟨24, false, [], [], false, false, false⟩, (some ⟨15, 45⟩)⟩ [
         ex src (.cast true false) (some .uint) .plain 28 (some ⟨28, 45⟩) (fun f => { f with intVal := some 97, boolVal := some true, cxx11Const := true }) [
          ex src (.cast false true) (some .int) .operand 28 (some ⟨28, 45⟩) (fun f => { f with intVal := some 97, boolVal := some true, cxx11Const := true }) [
           ex src (.cast true false) (some .int) .operand 42 (some ⟨42, 45⟩) (fun f => { f with intVal := some 97, boolVal := some true, cxx11Const := true }) [
            ex src .other (some .char) .operand 42 (some ⟨42, 45⟩) (fun f => { f with intVal := some 97, boolVal := some true, cxx11Const := true }) []]]]]]]]]
    expected := "// DREDD PRELUDE START\n// If this has been inserted at an inappropriate place in a source file,\n// declare a placeholder function with the following signature to\n// mandate where the prelude should be placed:\n//\n// void __dredd_prelude_start();\n//\n#include <atomic>\n#include <cinttypes>\n#include <cstddef>\n#include <fstream>\n#include <functional>\n#include <sstream>\n#include <string>\n\n\n#ifdef _MSC_VER\n#define thread_local __declspec(thread)\n#elif __APPLE__\n#define thread_local __thread\n#endif\n\nstatic thread_local bool __dredd_some_mutation_enabled = true;\nstatic bool __dredd_enabled_mutation(int local_mutation_id) {\n  static thread_local bool initialized = false;\n  static thread_local uint64_t enabled_bitset[1];\n  if (!initialized) {\n    bool some_mutation_enabled = false;\n    const char* dredd_environment_variable = std::getenv(\"DREDD_ENABLED_MUTATION\");\n    if (dredd_environment_variable != nullptr) {\n      std::string contents(dredd_environment_variable);\n      while (true) {\n        size_t pos = contents.find(\",\");\n        std::string token = (pos == std::string::npos ? contents : contents.substr(0, pos));\n        if (!token.empty()) {\n          int value = std::stoi(token);\n          int local_value = value - 0;\n          if (local_value >= 0 && local_value < 3) {\n            enabled_bitset[local_value / 64] |= (static_cast<uint64_t>(1) << (local_value % 64));\n            some_mutation_enabled = true;\n          }\n        }\n        if (pos == std::string::npos) {\n          break;\n        }\n        contents.erase(0, pos + 1);\n      }\n    }\n    initialized = true;\n    __dredd_some_mutation_enabled = some_mutation_enabled;\n  }\n  return (enabled_bitset[local_mutation_id / 64] & (static_cast<uint64_t>(1) << (local_mutation_id % 64))) != 0;\n}\n\nstatic unsigned int __dredd_replace_expr_unsigned_int_constant(unsigned int arg, int local_mutation_id) {\n  if (!__dredd_some_mutation_enabled) return arg;\n  if (__dredd_enabled_mutation(local_mutation_id + 0)) return ~(arg);\n  if (__dredd_enabled_mutation(local_mutation_id + 1)) return 0;\n  if (__dredd_enabled_mutation(local_mutation_id + 2)) return 1;\n  return arg;\n}\n\nvoid foo() {\n  unsigned x = __dredd_replace_expr_unsigned_int_constant((decltype(1)) 'a', 0);\n}\n"
    noopt := "// DREDD PRELUDE START\n// If this has been inserted at an inappropriate place in a source file,\n// declare a placeholder function with the following signature to\n// mandate where the prelude should be placed:\n//\n// void __dredd_prelude_start();\n//\n#include <atomic>\n#include <cinttypes>\n#include <cstddef>\n#include <fstream>\n#include <functional>\n#include <sstream>\n#include <string>\n\n\n#ifdef _MSC_VER\n#define thread_local __declspec(thread)\n#elif __APPLE__\n#define thread_local __thread\n#endif\n\nstatic thread_local bool __dredd_some_mutation_enabled = true;\nstatic bool __dredd_enabled_mutation(int local_mutation_id) {\n  static thread_local bool initialized = false;\n  static thread_local uint64_t enabled_bitset[1];\n  if (!initialized) {\n    bool some_mutation_enabled = false;\n    const char* dredd_environment_variable = std::getenv(\"DREDD_ENABLED_MUTATION\");\n    if (dredd_environment_variable != nullptr) {\n      std::string contents(dredd_environment_variable);\n      while (true) {\n        size_t pos = contents.find(\",\");\n        std::string token = (pos == std::string::npos ? contents : contents.substr(0, pos));\n        if (!token.empty()) {\n          int value = std::stoi(token);\n          int local_value = value - 0;\n          if (local_value >= 0 && local_value < 4) {\n            enabled_bitset[local_value / 64] |= (static_cast<uint64_t>(1) << (local_value % 64));\n            some_mutation_enabled = true;\n          }\n        }\n        if (pos == std::string::npos) {\n          break;\n        }\n        contents.erase(0, pos + 1);\n      }\n    }\n    initialized = true;\n    __dredd_some_mutation_enabled = some_mutation_enabled;\n  }\n  return (enabled_bitset[local_mutation_id / 64] & (static_cast<uint64_t>(1) << (local_mutation_id % 64))) != 0;\n}\n\nstatic unsigned int __dredd_replace_expr_unsigned_int(unsigned int arg, int local_mutation_id) {\n  if (!__dredd_some_mutation_enabled) return arg;\n  if (__dredd_enabled_mutation(local_mutation_id + 0)) return !(arg);\n  if (__dredd_enabled_mutation(local_mutation_id + 1)) return ~(arg);\n  if (__dredd_enabled_mutation(local_mutation_id + 2)) return 0;\n  if (__dredd_enabled_mutation(local_mutation_id + 3)) return 1;\n  return arg;\n}\n\nvoid foo() {\n  unsigned x = __dredd_replace_expr_unsigned_int((decltype(1)) 'a', 0);\n}\n" }

#guard decltype_cast_cc.ok

/-- test/single_file/default_param.cc -/
def default_param_cc : Case :=
  let src : Text := t!"// We do not want the default parameter to be mutated since a lambda\n// is not allowed in that context.\nvoid foo(int x = 42) {\n}\n"
  { name := "default_param.cc", lang := cpp, src := src, ast :=
    .decl ⟨.tu, none⟩ [
     .decl ⟨.func false none, (some ⟨104, 128⟩)⟩ [
      .decl ⟨.parm, (some ⟨113, 123⟩)⟩ [
       ex src .other (some .int) .plain 121 (some ⟨121, 123⟩) (fun f => { f with intVal := some 42, boolVal := some true, cxx11Const := true }) []],
      st src .compound .plain (some ⟨125, 128⟩) []]]
    expected := "// We do not want the default parameter to be mutated since a lambda\n// is not allowed in that context.\nvoid foo(int x = 42) {\n}\n"
    noopt := "// We do not want the default parameter to be mutated since a lambda\n// is not allowed in that context.\nvoid foo(int x = 42) {\n}\n" }

#guard default_param_cc.ok

/-- test/single_file/initializer_list.cc -/
def initializer_list_cc : Case :=
  let src : Text := t!"#include <cstddef>\n\nstruct A {\n  size_t x;\n  size_t y;\n};\n\nvoid foo(A arg);\n\nvoid bar() {\n  foo({0, 0});\n}\n"
  { name := "initializer_list.cc", lang := cpp, src := src, ast :=
    .decl ⟨.tu, none⟩ [
     .decl ⟨.other, (some ⟨20, 56⟩)⟩ [],
     .decl ⟨.func false none, (some ⟨59, 74⟩)⟩ [
      .decl ⟨.parm, (some ⟨68, 73⟩)⟩ []],
     .decl ⟨.func false none, (some ⟨77, 106⟩)⟩ [
      st src .compound .plain (some ⟨88, 106⟩) [
       ex src (.call none false false) none .plain 92 (some ⟨92, 103⟩) (fun f => { f with sideEffects := true }) [
        ex src (.cast true false) none .plain 92 (some ⟨92, 95⟩) (fun f => { f with anyPointer := true, pointer := true }) [
         ex src .other none .operand 92 (some ⟨92, 95⟩) (fun f => { f with lvalue := true }) []],
        ex src .initList none .callArg 96 (some ⟨96, 102⟩) id [
         ex src .other (some .int) .plain 97 (some ⟨97, 98⟩) (fun f => { f with intVal := some 0, boolVal := some false, cxx11Const := true, nullConst := true, initCast := some ⟨false, false, (some .ulong)⟩ }) [],
         ex src .other (some .int) .plain 100 (some ⟨100, 101⟩) (fun f => { f with intVal := some 0, boolVal := some false, cxx11Const := true, nullConst := true, initCast := some ⟨false, false, (some .ulong)⟩ }) []]]]]]
    expected := "// DREDD PRELUDE START\n// If this has been inserted at an inappropriate place in a source file,\n// declare a placeholder function with the following signature to\n// mandate where the prelude should be placed:\n//\n// void __dredd_prelude_start();\n//\n#include <atomic>\n#include <cinttypes>\n#include <cstddef>\n#include <fstream>\n#include <functional>\n#include <sstream>\n#include <string>\n\n\n#ifdef _MSC_VER\n#define thread_local __declspec(thread)\n#elif __APPLE__\n#define thread_local __thread\n#endif\n\nstatic thread_local bool __dredd_some_mutation_enabled = true;\nstatic bool __dredd_enabled_mutation(int local_mutation_id) {\n  static thread_local bool initialized = false;\n  static thread_local uint64_t enabled_bitset[1];\n  if (!initialized) {\n    bool some_mutation_enabled = false;\n    const char* dredd_environment_variable = std::getenv(\"DREDD_ENABLED_MUTATION\");\n    if (dredd_environment_variable != nullptr) {\n      std::string contents(dredd_environment_variable);\n      while (true) {\n        size_t pos = contents.find(\",\");\n        std::string token = (pos == std::string::npos ? contents : contents.substr(0, pos));\n        if (!token.empty()) {\n          int value = std::stoi(token);\n          int local_value = value - 0;\n          if (local_value >= 0 && local_value < 5) {\n            enabled_bitset[local_value / 64] |= (static_cast<uint64_t>(1) << (local_value % 64));\n            some_mutation_enabled = true;\n          }\n        }\n        if (pos == std::string::npos) {\n          break;\n        }\n        contents.erase(0, pos + 1);\n      }\n    }\n    initialized = true;\n    __dredd_some_mutation_enabled = some_mutation_enabled;\n  }\n  return (enabled_bitset[local_mutation_id / 64] & (static_cast<uint64_t>(1) << (local_mutation_id % 64))) != 0;\n}\n\nstatic int __dredd_replace_expr_int_zero(int arg, int local_mutation_id) {\n  if (!__dredd_some_mutation_enabled) return arg;\n  if (__dredd_enabled_mutation(local_mutation_id + 0)) return 1;\n  if (__dredd_enabled_mutation(local_mutation_id + 1)) return -1;\n  return arg;\n}\n\n#include <cstddef>\n\nstruct A {\n  size_t x;\n  size_t y;\n};\n\nvoid foo(A arg);\n\nvoid bar() {\n  if (!__dredd_enabled_mutation(4)) { foo({static_cast<unsigned long>(__dredd_replace_expr_int_zero(0, 0)), static_cast<unsigned long>(__dredd_replace_expr_int_zero(0, 2))}); }\n}\n"
    noopt := "// DREDD PRELUDE START\n// If this has been inserted at an inappropriate place in a source file,\n// declare a placeholder function with the following signature to\n// mandate where the prelude should be placed:\n//\n// void __dredd_prelude_start();\n//\n#include <atomic>\n#include <cinttypes>\n#include <cstddef>\n#include <fstream>\n#include <functional>\n#include <sstream>\n#include <string>\n\n\n#ifdef _MSC_VER\n#define thread_local __declspec(thread)\n#elif __APPLE__\n#define thread_local __thread\n#endif\n\nstatic thread_local bool __dredd_some_mutation_enabled = true;\nstatic bool __dredd_enabled_mutation(int local_mutation_id) {\n  static thread_local bool initialized = false;\n  static thread_local uint64_t enabled_bitset[1];\n  if (!initialized) {\n    bool some_mutation_enabled = false;\n    const char* dredd_environment_variable = std::getenv(\"DREDD_ENABLED_MUTATION\");\n    if (dredd_environment_variable != nullptr) {\n      std::string contents(dredd_environment_variable);\n      while (true) {\n        size_t pos = contents.find(\",\");\n        std::string token = (pos == std::string::npos ? contents : contents.substr(0, pos));\n        if (!token.empty()) {\n          int value = std::stoi(token);\n          int local_value = value - 0;\n          if (local_value >= 0 && local_value < 13) {\n            enabled_bitset[local_value / 64] |= (static_cast<uint64_t>(1) << (local_value % 64));\n            some_mutation_enabled = true;\n          }\n        }\n        if (pos == std::string::npos) {\n          break;\n        }\n        contents.erase(0, pos + 1);\n      }\n    }\n    initialized = true;\n    __dredd_some_mutation_enabled = some_mutation_enabled;\n  }\n  return (enabled_bitset[local_mutation_id / 64] & (static_cast<uint64_t>(1) << (local_mutation_id % 64))) != 0;\n}\n\nstatic int __dredd_replace_expr_int(int arg, int local_mutation_id) {\n  if (!__dredd_some_mutation_enabled) return arg;\n  if (__dredd_enabled_mutation(local_mutation_id + 0)) return !(arg);\n  if (__dredd_enabled_mutation(local_mutation_id + 1)) return ~(arg);\n  if (__dredd_enabled_mutation(local_mutation_id + 2)) return -(arg);\n  if (__dredd_enabled_mutation(local_mutation_id + 3)) return 0;\n  if (__dredd_enabled_mutation(local_mutation_id + 4)) return 1;\n  if (__dredd_enabled_mutation(local_mutation_id + 5)) return -1;\n  return arg;\n}\n\n#include <cstddef>\n\nstruct A {\n  size_t x;\n  size_t y;\n};\n\nvoid foo(A arg);\n\nvoid bar() {\n  if (!__dredd_enabled_mutation(12)) { foo({static_cast<unsigned long>(__dredd_replace_expr_int(0, 0)), static_cast<unsigned long>(__dredd_replace_expr_int(0, 6))}); }\n}\n" }

#guard initializer_list_cc.ok

/-- test/single_file/initializer_list_long_to_short.cc -/
def initializer_list_long_to_short_cc : Case :=
  let src : Text := t!"#include <initializer_list>\n\nclass foo {\npublic:\n  foo(std::initializer_list<short>) {}\n};\n\nint main() { \n    foo{(long) 2}; \n}\n"
  { name := "initializer_list_long_to_short.cc", lang := cpp, src := src, ast :=
    .decl ⟨.tu, none⟩ [
     .decl ⟨.other, (some ⟨29, 89⟩)⟩ [],
     .decl ⟨.func false none, (some ⟨92, 127⟩)⟩ [
      st src .compound .plain (some ⟨103, 127⟩) [
       ex src .construct none .plain 110 (some ⟨110, 123⟩) (fun f => { f with sideEffects := true }) [
        ex src .initList none .plain 113 (some ⟨113, 123⟩) id [
         ex src (.cast false false) (some .long) .plain 114 (some ⟨114, 122⟩) (fun f => { f with intVal := some 2, boolVal := some true, cxx11Const := true, initCast := some ⟨false, false, (some .short)⟩ }) [
          ex src (.cast true false) (some .long) .operand 121 (some ⟨121, 122⟩) (fun f => { f with intVal := some 2, boolVal := some true, cxx11Const := true }) [
           ex src .other (some .int) .operand 121 (some ⟨121, 122⟩) (fun f => { f with intVal := some 2, boolVal := some true, cxx11Const := true }) []]]]]]]]
    expected := "// DREDD PRELUDE START\n// If this has been inserted at an inappropriate place in a source file,\n// declare a placeholder function with the following signature to\n// mandate where the prelude should be placed:\n//\n// void __dredd_prelude_start();\n//\n#include <atomic>\n#include <cinttypes>\n#include <cstddef>\n#include <fstream>\n#include <functional>\n#include <sstream>\n#include <string>\n\n\n#ifdef _MSC_VER\n#define thread_local __declspec(thread)\n#elif __APPLE__\n#define thread_local __thread\n#endif\n\nstatic thread_local bool __dredd_some_mutation_enabled = true;\nstatic bool __dredd_enabled_mutation(int local_mutation_id) {\n  static thread_local bool initialized = false;\n  static thread_local uint64_t enabled_bitset[1];\n  if (!initialized) {\n    bool some_mutation_enabled = false;\n    const char* dredd_environment_variable = std::getenv(\"DREDD_ENABLED_MUTATION\");\n    if (dredd_environment_variable != nullptr) {\n      std::string contents(dredd_environment_variable);\n      while (true) {\n        size_t pos = contents.find(\",\");\n        std::string token = (pos == std::string::npos ? contents : contents.substr(0, pos));\n        if (!token.empty()) {\n          int value = std::stoi(token);\n          int local_value = value - 0;\n          if (local_value >= 0 && local_value < 6) {\n            enabled_bitset[local_value / 64] |= (static_cast<uint64_t>(1) << (local_value % 64));\n            some_mutation_enabled = true;\n          }\n        }\n        if (pos == std::string::npos) {\n          break;\n        }\n        contents.erase(0, pos + 1);\n      }\n    }\n    initialized = true;\n    __dredd_some_mutation_enabled = some_mutation_enabled;\n  }\n  return (enabled_bitset[local_mutation_id / 64] & (static_cast<uint64_t>(1) << (local_mutation_id % 64))) != 0;\n}\n\nstatic long __dredd_replace_expr_long_constant(long arg, int local_mutation_id) {\n  if (!__dredd_some_mutation_enabled) return arg;\n  if (__dredd_enabled_mutation(local_mutation_id + 0)) return ~(arg);\n  if (__dredd_enabled_mutation(local_mutation_id + 1)) return -(arg);\n  if (__dredd_enabled_mutation(local_mutation_id + 2)) return 0;\n  if (__dredd_enabled_mutation(local_mutation_id + 3)) return 1;\n  if (__dredd_enabled_mutation(local_mutation_id + 4)) return -1;\n  return arg;\n}\n\n#include <initializer_list>\n\nclass foo {\npublic:\n  foo(std::initializer_list<short>) {}\n};\n\nint main() { \n    if (!__dredd_enabled_mutation(5)) { foo{static_cast<short>(__dredd_replace_expr_long_constant((long) 2, 0))}; } \n}\n"
    noopt := "// DREDD PRELUDE START\n// If this has been inserted at an inappropriate place in a source file,\n// declare a placeholder function with the following signature to\n// mandate where the prelude should be placed:\n//\n// void __dredd_prelude_start();\n//\n#include <atomic>\n#include <cinttypes>\n#include <cstddef>\n#include <fstream>\n#include <functional>\n#include <sstream>\n#include <string>\n\n\n#ifdef _MSC_VER\n#define thread_local __declspec(thread)\n#elif __APPLE__\n#define thread_local __thread\n#endif\n\nstatic thread_local bool __dredd_some_mutation_enabled = true;\nstatic bool __dredd_enabled_mutation(int local_mutation_id) {\n  static thread_local bool initialized = false;\n  static thread_local uint64_t enabled_bitset[1];\n  if (!initialized) {\n    bool some_mutation_enabled = false;\n    const char* dredd_environment_variable = std::getenv(\"DREDD_ENABLED_MUTATION\");\n    if (dredd_environment_variable != nullptr) {\n      std::string contents(dredd_environment_variable);\n      while (true) {\n        size_t pos = contents.find(\",\");\n        std::string token = (pos == std::string::npos ? contents : contents.substr(0, pos));\n        if (!token.empty()) {\n          int value = std::stoi(token);\n          int local_value = value - 0;\n          if (local_value >= 0 && local_value < 19) {\n            enabled_bitset[local_value / 64] |= (static_cast<uint64_t>(1) << (local_value % 64));\n            some_mutation_enabled = true;\n          }\n        }\n        if (pos == std::string::npos) {\n          break;\n        }\n        contents.erase(0, pos + 1);\n      }\n    }\n    initialized = true;\n    __dredd_some_mutation_enabled = some_mutation_enabled;\n  }\n  return (enabled_bitset[local_mutation_id / 64] & (static_cast<uint64_t>(1) << (local_mutation_id % 64))) != 0;\n}\n\nstatic long __dredd_replace_expr_long(long arg, int local_mutation_id) {\n  if (!__dredd_some_mutation_enabled) return arg;\n  if (__dredd_enabled_mutation(local_mutation_id + 0)) return !(arg);\n  if (__dredd_enabled_mutation(local_mutation_id + 1)) return ~(arg);\n  if (__dredd_enabled_mutation(local_mutation_id + 2)) return -(arg);\n  if (__dredd_enabled_mutation(local_mutation_id + 3)) return 0;\n  if (__dredd_enabled_mutation(local_mutation_id + 4)) return 1;\n  if (__dredd_enabled_mutation(local_mutation_id + 5)) return -1;\n  return arg;\n}\n\nstatic int __dredd_replace_expr_int(int arg, int local_mutation_id) {\n  if (!__dredd_some_mutation_enabled) return arg;\n  if (__dredd_enabled_mutation(local_mutation_id + 0)) return !(arg);\n  if (__dredd_enabled_mutation(local_mutation_id + 1)) return ~(arg);\n  if (__dredd_enabled_mutation(local_mutation_id + 2)) return -(arg);\n  if (__dredd_enabled_mutation(local_mutation_id + 3)) return 0;\n  if (__dredd_enabled_mutation(local_mutation_id + 4)) return 1;\n  if (__dredd_enabled_mutation(local_mutation_id + 5)) return -1;\n  return arg;\n}\n\n#include <initializer_list>\n\nclass foo {\npublic:\n  foo(std::initializer_list<short>) {}\n};\n\nint main() { \n    if (!__dredd_enabled_mutation(18)) { foo{static_cast<short>(__dredd_replace_expr_long((long) __dredd_replace_expr_long(__dredd_replace_expr_int(2, 0), 6), 12))}; } \n}\n" }

#guard initializer_list_long_to_short_cc.ok

/-- test/single_file/initializer_list_narrower.cc -/
def initializer_list_narrower_cc : Case :=
  let src : Text := t!"#include <initializer_list>\n\nclass foo {\npublic:\n  foo(std::initializer_list<unsigned int>) {}\n};\n\nint main() { \n    foo{+2}; \n}\n"
  { name := "initializer_list_narrower.cc", lang := cpp, src := src, ast :=
    .decl ⟨.tu, none⟩ [
     .decl ⟨.other, (some ⟨29, 96⟩)⟩ [],
     .decl ⟨.func false none, (some ⟨99, 128⟩)⟩ [
      st src .compound .plain (some ⟨110, 128⟩) [
       ex src .construct none .plain 117 (some ⟨117, 124⟩) (fun f => { f with sideEffects := true }) [
        ex src .initList none .plain 120 (some ⟨120, 124⟩) id [
         ex src (.unary .plus) (some .int) .plain 121 (some ⟨121, 123⟩) (fun f => { f with intVal := some 2, boolVal := some true, cxx11Const := true, initCast := some ⟨false, false, (some .uint)⟩, opOff := some 121 }) [
          ex src .other (some .int) .operand 122 (some ⟨122, 123⟩) (fun f => { f with intVal := some 2, boolVal := some true, cxx11Const := true }) []]]]]]]
    expected := "// DREDD PRELUDE START\n// If this has been inserted at an inappropriate place in a source file,\n// declare a placeholder function with the following signature to\n// mandate where the prelude should be placed:\n//\n// void __dredd_prelude_start();\n//\n#include <atomic>\n#include <cinttypes>\n#include <cstddef>\n#include <fstream>\n#include <functional>\n#include <sstream>\n#include <string>\n\n\n#ifdef _MSC_VER\n#define thread_local __declspec(thread)\n#elif __APPLE__\n#define thread_local __thread\n#endif\n\nstatic thread_local bool __dredd_some_mutation_enabled = true;\nstatic bool __dredd_enabled_mutation(int local_mutation_id) {\n  static thread_local bool initialized = false;\n  static thread_local uint64_t enabled_bitset[1];\n  if (!initialized) {\n    bool some_mutation_enabled = false;\n    const char* dredd_environment_variable = std::getenv(\"DREDD_ENABLED_MUTATION\");\n    if (dredd_environment_variable != nullptr) {\n      std::string contents(dredd_environment_variable);\n      while (true) {\n        size_t pos = contents.find(\",\");\n        std::string token = (pos == std::string::npos ? contents : contents.substr(0, pos));\n        if (!token.empty()) {\n          int value = std::stoi(token);\n          int local_value = value - 0;\n          if (local_value >= 0 && local_value < 11) {\n            enabled_bitset[local_value / 64] |= (static_cast<uint64_t>(1) << (local_value % 64));\n            some_mutation_enabled = true;\n          }\n        }\n        if (pos == std::string::npos) {\n          break;\n        }\n        contents.erase(0, pos + 1);\n      }\n    }\n    initialized = true;\n    __dredd_some_mutation_enabled = some_mutation_enabled;\n  }\n  return (enabled_bitset[local_mutation_id / 64] & (static_cast<uint64_t>(1) << (local_mutation_id % 64))) != 0;\n}\n\nstatic int __dredd_replace_expr_int_constant(int arg, int local_mutation_id) {\n  if (!__dredd_some_mutation_enabled) return arg;\n  if (__dredd_enabled_mutation(local_mutation_id + 0)) return ~(arg);\n  if (__dredd_enabled_mutation(local_mutation_id + 1)) return -(arg);\n  if (__dredd_enabled_mutation(local_mutation_id + 2)) return 0;\n  if (__dredd_enabled_mutation(local_mutation_id + 3)) return 1;\n  if (__dredd_enabled_mutation(local_mutation_id + 4)) return -1;\n  return arg;\n}\n\n#include <initializer_list>\n\nclass foo {\npublic:\n  foo(std::initializer_list<unsigned int>) {}\n};\n\nint main() { \n    if (!__dredd_enabled_mutation(10)) { foo{static_cast<unsigned int>(__dredd_replace_expr_int_constant(+__dredd_replace_expr_int_constant(2, 0), 5))}; } \n}\n"
    noopt := "// DREDD PRELUDE START\n// If this has been inserted at an inappropriate place in a source file,\n// declare a placeholder function with the following signature to\n// mandate where the prelude should be placed:\n//\n// void __dredd_prelude_start();\n//\n#include <atomic>\n#include <cinttypes>\n#include <cstddef>\n#include <fstream>\n#include <functional>\n#include <sstream>\n#include <string>\n\n\n#ifdef _MSC_VER\n#define thread_local __declspec(thread)\n#elif __APPLE__\n#define thread_local __thread\n#endif\n\nstatic thread_local bool __dredd_some_mutation_enabled = true;\nstatic bool __dredd_enabled_mutation(int local_mutation_id) {\n  static thread_local bool initialized = false;\n  static thread_local uint64_t enabled_bitset[1];\n  if (!initialized) {\n    bool some_mutation_enabled = false;\n    const char* dredd_environment_variable = std::getenv(\"DREDD_ENABLED_MUTATION\");\n    if (dredd_environment_variable != nullptr) {\n      std::string contents(dredd_environment_variable);\n      while (true) {\n        size_t pos = contents.find(\",\");\n        std::string token = (pos == std::string::npos ? contents : contents.substr(0, pos));\n        if (!token.empty()) {\n          int value = std::stoi(token);\n          int local_value = value - 0;\n          if (local_value >= 0 && local_value < 13) {\n            enabled_bitset[local_value / 64] |= (static_cast<uint64_t>(1) << (local_value % 64));\n            some_mutation_enabled = true;\n          }\n        }\n        if (pos == std::string::npos) {\n          break;\n        }\n        contents.erase(0, pos + 1);\n      }\n    }\n    initialized = true;\n    __dredd_some_mutation_enabled = some_mutation_enabled;\n  }\n  return (enabled_bitset[local_mutation_id / 64] & (static_cast<uint64_t>(1) << (local_mutation_id % 64))) != 0;\n}\n\nstatic int __dredd_replace_expr_int(int arg, int local_mutation_id) {\n  if (!__dredd_some_mutation_enabled) return arg;\n  if (__dredd_enabled_mutation(local_mutation_id + 0)) return !(arg);\n  if (__dredd_enabled_mutation(local_mutation_id + 1)) return ~(arg);\n  if (__dredd_enabled_mutation(local_mutation_id + 2)) return -(arg);\n  if (__dredd_enabled_mutation(local_mutation_id + 3)) return 0;\n  if (__dredd_enabled_mutation(local_mutation_id + 4)) return 1;\n  if (__dredd_enabled_mutation(local_mutation_id + 5)) return -1;\n  return arg;\n}\n\n#include <initializer_list>\n\nclass foo {\npublic:\n  foo(std::initializer_list<unsigned int>) {}\n};\n\nint main() { \n    if (!__dredd_enabled_mutation(12)) { foo{static_cast<unsigned int>(__dredd_replace_expr_int(+__dredd_replace_expr_int(2, 0), 6))}; } \n}\n" }

#guard initializer_list_narrower_cc.ok

/-- test/single_file/initializer_list_narrower_nested.cc -/
def initializer_list_narrower_nested_cc : Case :=
  let src : Text := t!"struct foo {\n  short x;\n  short y;\n};\n\nvoid baz() {\n  foo bar[] = {{1, 2}};\n}\n"
  { name := "initializer_list_narrower_nested.cc", lang := cpp, src := src, ast :=
    .decl ⟨.tu, none⟩ [
     .decl ⟨.other, (some ⟨0, 36⟩)⟩ [],
     .decl ⟨.func false none, (some ⟨39, 77⟩)⟩ [
      st src .compound .plain (some ⟨50, 77⟩) [
       st src .declStmt .plain (some ⟨54, 75⟩) [
        .decl ⟨.var ⟨58, true, [], [], false, false, false⟩, (some ⟨54, 74⟩)⟩ [
         ex src .initList none .plain 66 (some ⟨66, 74⟩) id [
          ex src .initList none .plain 67 (some ⟨67, 73⟩) id [
           ex src .other (some .int) .plain 68 (some ⟨68, 69⟩) (fun f => { f with intVal := some 1, boolVal := some true, cxx11Const := true, initCast := some ⟨false, false, (some .short)⟩ }) [],
           ex src .other (some .int) .plain 71 (some ⟨71, 72⟩) (fun f => { f with intVal := some 2, boolVal := some true, cxx11Const := true, initCast := some ⟨false, false, (some .short)⟩ }) []]]]]]]]
    expected := "// DREDD PRELUDE START\n// If this has been inserted at an inappropriate place in a source file,\n// declare a placeholder function with the following signature to\n// mandate where the prelude should be placed:\n//\n// void __dredd_prelude_start();\n//\n#include <atomic>\n#include <cinttypes>\n#include <cstddef>\n#include <fstream>\n#include <functional>\n#include <sstream>\n#include <string>\n\n\n#ifdef _MSC_VER\n#define thread_local __declspec(thread)\n#elif __APPLE__\n#define thread_local __thread\n#endif\n\nstatic thread_local bool __dredd_some_mutation_enabled = true;\nstatic bool __dredd_enabled_mutation(int local_mutation_id) {\n  static thread_local bool initialized = false;\n  static thread_local uint64_t enabled_bitset[1];\n  if (!initialized) {\n    bool some_mutation_enabled = false;\n    const char* dredd_environment_variable = std::getenv(\"DREDD_ENABLED_MUTATION\");\n    if (dredd_environment_variable != nullptr) {\n      std::string contents(dredd_environment_variable);\n      while (true) {\n        size_t pos = contents.find(\",\");\n        std::string token = (pos == std::string::npos ? contents : contents.substr(0, pos));\n        if (!token.empty()) {\n          int value = std::stoi(token);\n          int local_value = value - 0;\n          if (local_value >= 0 && local_value < 8) {\n            enabled_bitset[local_value / 64] |= (static_cast<uint64_t>(1) << (local_value % 64));\n            some_mutation_enabled = true;\n          }\n        }\n        if (pos == std::string::npos) {\n          break;\n        }\n        contents.erase(0, pos + 1);\n      }\n    }\n    initialized = true;\n    __dredd_some_mutation_enabled = some_mutation_enabled;\n  }\n  return (enabled_bitset[local_mutation_id / 64] & (static_cast<uint64_t>(1) << (local_mutation_id % 64))) != 0;\n}\n\nstatic int __dredd_replace_expr_int_one(int arg, int local_mutation_id) {\n  if (!__dredd_some_mutation_enabled) return arg;\n  if (__dredd_enabled_mutation(local_mutation_id + 0)) return ~(arg);\n  if (__dredd_enabled_mutation(local_mutation_id + 1)) return 0;\n  if (__dredd_enabled_mutation(local_mutation_id + 2)) return -1;\n  return arg;\n}\n\nstatic int __dredd_replace_expr_int_constant(int arg, int local_mutation_id) {\n  if (!__dredd_some_mutation_enabled) return arg;\n  if (__dredd_enabled_mutation(local_mutation_id + 0)) return ~(arg);\n  if (__dredd_enabled_mutation(local_mutation_id + 1)) return -(arg);\n  if (__dredd_enabled_mutation(local_mutation_id + 2)) return 0;\n  if (__dredd_enabled_mutation(local_mutation_id + 3)) return 1;\n  if (__dredd_enabled_mutation(local_mutation_id + 4)) return -1;\n  return arg;\n}\n\nstruct foo {\n  short x;\n  short y;\n};\n\nvoid baz() {\n  foo bar[] = {{static_cast<short>(__dredd_replace_expr_int_one(1, 0)), static_cast<short>(__dredd_replace_expr_int_constant(2, 3))}};\n}\n"
    noopt := "// DREDD PRELUDE START\n// If this has been inserted at an inappropriate place in a source file,\n// declare a placeholder function with the following signature to\n// mandate where the prelude should be placed:\n//\n// void __dredd_prelude_start();\n//\n#include <atomic>\n#include <cinttypes>\n#include <cstddef>\n#include <fstream>\n#include <functional>\n#include <sstream>\n#include <string>\n\n\n#ifdef _MSC_VER\n#define thread_local __declspec(thread)\n#elif __APPLE__\n#define thread_local __thread\n#endif\n\nstatic thread_local bool __dredd_some_mutation_enabled = true;\nstatic bool __dredd_enabled_mutation(int local_mutation_id) {\n  static thread_local bool initialized = false;\n  static thread_local uint64_t enabled_bitset[1];\n  if (!initialized) {\n    bool some_mutation_enabled = false;\n    const char* dredd_environment_variable = std::getenv(\"DREDD_ENABLED_MUTATION\");\n    if (dredd_environment_variable != nullptr) {\n      std::string contents(dredd_environment_variable);\n      while (true) {\n        size_t pos = contents.find(\",\");\n        std::string token = (pos == std::string::npos ? contents : contents.substr(0, pos));\n        if (!token.empty()) {\n          int value = std::stoi(token);\n          int local_value = value - 0;\n          if (local_value >= 0 && local_value < 12) {\n            enabled_bitset[local_value / 64] |= (static_cast<uint64_t>(1) << (local_value % 64));\n            some_mutation_enabled = true;\n          }\n        }\n        if (pos == std::string::npos) {\n          break;\n        }\n        contents.erase(0, pos + 1);\n      }\n    }\n    initialized = true;\n    __dredd_some_mutation_enabled = some_mutation_enabled;\n  }\n  return (enabled_bitset[local_mutation_id / 64] & (static_cast<uint64_t>(1) << (local_mutation_id % 64))) != 0;\n}\n\nstatic int __dredd_replace_expr_int(int arg, int local_mutation_id) {\n  if (!__dredd_some_mutation_enabled) return arg;\n  if (__dredd_enabled_mutation(local_mutation_id + 0)) return !(arg);\n  if (__dredd_enabled_mutation(local_mutation_id + 1)) return ~(arg);\n  if (__dredd_enabled_mutation(local_mutation_id + 2)) return -(arg);\n  if (__dredd_enabled_mutation(local_mutation_id + 3)) return 0;\n  if (__dredd_enabled_mutation(local_mutation_id + 4)) return 1;\n  if (__dredd_enabled_mutation(local_mutation_id + 5)) return -1;\n  return arg;\n}\n\nstruct foo {\n  short x;\n  short y;\n};\n\nvoid baz() {\n  foo bar[] = {{static_cast<short>(__dredd_replace_expr_int(1, 0)), static_cast<short>(__dredd_replace_expr_int(2, 6))}};\n}\n" }

#guard initializer_list_narrower_nested_cc.ok

/-- test/single_file/initializer_list_with_templates.cc -/
def initializer_list_with_templates_cc : Case :=
  let src : Text := t!"#include <memory>\nclass a {\npublic:\n  a(int);\n  virtual void b();\n};\ntemplate <typename> class c : a {\n  using a::a;\n  void b() {\n    struct {\n      short d;\n    } e{0};\n  }\n};\n\nvoid f() { std::make_shared<c<int>>(2); }\n"
  { name := "initializer_list_with_templates.cc", lang := cpp, src := src, ast :=
    .decl ⟨.tu, none⟩ [
     .decl ⟨.other, (some ⟨69, 175⟩)⟩ [
      .decl ⟨.other, (some ⟨89, 175⟩)⟩ [
       .decl ⟨.func false none, (some ⟨119, 173⟩)⟩ [
        st src .compound .plain (some ⟨128, 173⟩) [
         st src .declStmt .plain (some ⟨134, 169⟩) [
          .decl ⟨.other, (some ⟨134, 163⟩)⟩ [],
          .decl ⟨.var ⟨164, false, [], [], false, false, false⟩, (some ⟨134, 168⟩)⟩ [
           ex src .initList none .plain 165 (some ⟨165, 168⟩) id [
            ex src .other (some .int) .plain 166 (some ⟨166, 167⟩) (fun f => { f with intVal := some 0, boolVal := some false, cxx11Const := true, nullConst := true, initCast := some ⟨false, false, (some .short)⟩ }) []]]]]]]],
     .decl ⟨.func false none, (some ⟨178, 219⟩)⟩ [
      st src .compound .plain (some ⟨187, 219⟩) [
       ex src .cleanups none .plain 189 (some ⟨189, 216⟩) (fun f => { f with sideEffects := true }) [
        ex src (.call none false false) none .plain 189 (some ⟨189, 216⟩) (fun f => { f with sideEffects := true }) [
         ex src (.cast true false) none .plain 189 (some ⟨189, 213⟩) (fun f => { f with anyPointer := true, pointer := true }) [
          ex src .other none .operand 189 (some ⟨189, 213⟩) (fun f => { f with lvalue := true }) []],
         ex src .temporary (some .int) .callArg 214 (some ⟨214, 215⟩) (fun f => { f with lvalue := true }) [
          ex src .other (some .int) .plain 214 (some ⟨214, 215⟩) (fun f => { f with intVal := some 2, boolVal := some true, cxx11Const := true }) []]]]]]]
    expected := "// DREDD PRELUDE START\n// If this has been inserted at an inappropriate place in a source file,\n// declare a placeholder function with the following signature to\n// mandate where the prelude should be placed:\n//\n// void __dredd_prelude_start();\n//\n#include <atomic>\n#include <cinttypes>\n#include <cstddef>\n#include <fstream>\n#include <functional>\n#include <sstream>\n#include <string>\n\n\n#ifdef _MSC_VER\n#define thread_local __declspec(thread)\n#elif __APPLE__\n#define thread_local __thread\n#endif\n\nstatic thread_local bool __dredd_some_mutation_enabled = true;\nstatic bool __dredd_enabled_mutation(int local_mutation_id) {\n  static thread_local bool initialized = false;\n  static thread_local uint64_t enabled_bitset[1];\n  if (!initialized) {\n    bool some_mutation_enabled = false;\n    const char* dredd_environment_variable = std::getenv(\"DREDD_ENABLED_MUTATION\");\n    if (dredd_environment_variable != nullptr) {\n      std::string contents(dredd_environment_variable);\n      while (true) {\n        size_t pos = contents.find(\",\");\n        std::string token = (pos == std::string::npos ? contents : contents.substr(0, pos));\n        if (!token.empty()) {\n          int value = std::stoi(token);\n          int local_value = value - 0;\n          if (local_value >= 0 && local_value < 8) {\n            enabled_bitset[local_value / 64] |= (static_cast<uint64_t>(1) << (local_value % 64));\n            some_mutation_enabled = true;\n          }\n        }\n        if (pos == std::string::npos) {\n          break;\n        }\n        contents.erase(0, pos + 1);\n      }\n    }\n    initialized = true;\n    __dredd_some_mutation_enabled = some_mutation_enabled;\n  }\n  return (enabled_bitset[local_mutation_id / 64] & (static_cast<uint64_t>(1) << (local_mutation_id % 64))) != 0;\n}\n\nstatic int __dredd_replace_expr_int_zero(int arg, int local_mutation_id) {\n  if (!__dredd_some_mutation_enabled) return arg;\n  if (__dredd_enabled_mutation(local_mutation_id + 0)) return 1;\n  if (__dredd_enabled_mutation(local_mutation_id + 1)) return -1;\n  return arg;\n}\n\nstatic int __dredd_replace_expr_int_constant(int arg, int local_mutation_id) {\n  if (!__dredd_some_mutation_enabled) return arg;\n  if (__dredd_enabled_mutation(local_mutation_id + 0)) return ~(arg);\n  if (__dredd_enabled_mutation(local_mutation_id + 1)) return -(arg);\n  if (__dredd_enabled_mutation(local_mutation_id + 2)) return 0;\n  if (__dredd_enabled_mutation(local_mutation_id + 3)) return 1;\n  if (__dredd_enabled_mutation(local_mutation_id + 4)) return -1;\n  return arg;\n}\n\n#include <memory>\nclass a {\npublic:\n  a(int);\n  virtual void b();\n};\ntemplate <typename> class c : a {\n  using a::a;\n  void b() {\n    struct {\n      short d;\n    } e{static_cast<short>(__dredd_replace_expr_int_zero(0, 0))};\n  }\n};\n\nvoid f() { if (!__dredd_enabled_mutation(7)) { std::make_shared<c<int>>(__dredd_replace_expr_int_constant(2, 2)); } }\n"
    noopt := "// DREDD PRELUDE START\n// If this has been inserted at an inappropriate place in a source file,\n// declare a placeholder function with the following signature to\n// mandate where the prelude should be placed:\n//\n// void __dredd_prelude_start();\n//\n#include <atomic>\n#include <cinttypes>\n#include <cstddef>\n#include <fstream>\n#include <functional>\n#include <sstream>\n#include <string>\n\n\n#ifdef _MSC_VER\n#define thread_local __declspec(thread)\n#elif __APPLE__\n#define thread_local __thread\n#endif\n\nstatic thread_local bool __dredd_some_mutation_enabled = true;\nstatic bool __dredd_enabled_mutation(int local_mutation_id) {\n  static thread_local bool initialized = false;\n  static thread_local uint64_t enabled_bitset[1];\n  if (!initialized) {\n    bool some_mutation_enabled = false;\n    const char* dredd_environment_variable = std::getenv(\"DREDD_ENABLED_MUTATION\");\n    if (dredd_environment_variable != nullptr) {\n      std::string contents(dredd_environment_variable);\n      while (true) {\n        size_t pos = contents.find(\",\");\n        std::string token = (pos == std::string::npos ? contents : contents.substr(0, pos));\n        if (!token.empty()) {\n          int value = std::stoi(token);\n          int local_value = value - 0;\n          if (local_value >= 0 && local_value < 13) {\n            enabled_bitset[local_value / 64] |= (static_cast<uint64_t>(1) << (local_value % 64));\n            some_mutation_enabled = true;\n          }\n        }\n        if (pos == std::string::npos) {\n          break;\n        }\n        contents.erase(0, pos + 1);\n      }\n    }\n    initialized = true;\n    __dredd_some_mutation_enabled = some_mutation_enabled;\n  }\n  return (enabled_bitset[local_mutation_id / 64] & (static_cast<uint64_t>(1) << (local_mutation_id % 64))) != 0;\n}\n\nstatic int __dredd_replace_expr_int(int arg, int local_mutation_id) {\n  if (!__dredd_some_mutation_enabled) return arg;\n  if (__dredd_enabled_mutation(local_mutation_id + 0)) return !(arg);\n  if (__dredd_enabled_mutation(local_mutation_id + 1)) return ~(arg);\n  if (__dredd_enabled_mutation(local_mutation_id + 2)) return -(arg);\n  if (__dredd_enabled_mutation(local_mutation_id + 3)) return 0;\n  if (__dredd_enabled_mutation(local_mutation_id + 4)) return 1;\n  if (__dredd_enabled_mutation(local_mutation_id + 5)) return -1;\n  return arg;\n}\n\n#include <memory>\nclass a {\npublic:\n  a(int);\n  virtual void b();\n};\ntemplate <typename> class c : a {\n  using a::a;\n  void b() {\n    struct {\n      short d;\n    } e{static_cast<short>(__dredd_replace_expr_int(0, 0))};\n  }\n};\n\nvoid f() { if (!__dredd_enabled_mutation(12)) { std::make_shared<c<int>>(__dredd_replace_expr_int(2, 6)); } }\n" }

#guard initializer_list_with_templates_cc.ok

/-- test/single_file/lambda_capture.cc -/
def lambda_capture_cc : Case :=
  let src : Text := t!"void foo() {\n  int x = 2;\n  // It is important that \"x\" is not mutated in \"[x]\"\n  auto f = [x]() { return x; };\n}\n"
  { name := "lambda_capture.cc", lang := cpp, src := src, ast :=
    .decl ⟨.tu, none⟩ [
     .decl ⟨.func false none, (some ⟨0, 113⟩)⟩ [
      st src .compound .plain (some ⟨11, 113⟩) [
       st src .declStmt .plain (some ⟨15, 25⟩) [
        .decl ⟨.var ⟨19, false, [], [], false, false, false⟩, (some ⟨15, 24⟩)⟩ [
         ex src .other (some .int) .plain 23 (some ⟨23, 24⟩) (fun f => { f with intVal := some 2, boolVal := some true, cxx11Const := true }) []]],
       st src .declStmt .plain (some ⟨82, 111⟩) [
        .decl ⟨.var ⟨87, false, [], [], false, false, false⟩, (some ⟨82, 110⟩)⟩ [
         ex src (.lambda false) none .plain 91 (some ⟨91, 110⟩) id [
          .other .lambdaCapture [],
          st src .compound .plain (some ⟨97, 110⟩) [
           st src .other .plain (some ⟨99, 107⟩) [
            ex src (.cast true false) (some .int) .plain 106 (some ⟨106, 107⟩) id [
             ex src .other (some .int) .operand 106 (some ⟨106, 107⟩) (fun f => { f with lvalue := true, const := true }) []]]]]]]]]]
    expected := "// DREDD PRELUDE START\n// If this has been inserted at an inappropriate place in a source file,\n// declare a placeholder function with the following signature to\n// mandate where the prelude should be placed:\n//\n// void __dredd_prelude_start();\n//\n#include <atomic>\n#include <cinttypes>\n#include <cstddef>\n#include <fstream>\n#include <functional>\n#include <sstream>\n#include <string>\n\n\n#ifdef _MSC_VER\n#define thread_local __declspec(thread)\n#elif __APPLE__\n#define thread_local __thread\n#endif\n\nstatic thread_local bool __dredd_some_mutation_enabled = true;\nstatic bool __dredd_enabled_mutation(int local_mutation_id) {\n  static thread_local bool initialized = false;\n  static thread_local uint64_t enabled_bitset[1];\n  if (!initialized) {\n    bool some_mutation_enabled = false;\n    const char* dredd_environment_variable = std::getenv(\"DREDD_ENABLED_MUTATION\");\n    if (dredd_environment_variable != nullptr) {\n      std::string contents(dredd_environment_variable);\n      while (true) {\n        size_t pos = contents.find(\",\");\n        std::string token = (pos == std::string::npos ? contents : contents.substr(0, pos));\n        if (!token.empty()) {\n          int value = std::stoi(token);\n          int local_value = value - 0;\n          if (local_value >= 0 && local_value < 12) {\n            enabled_bitset[local_value / 64] |= (static_cast<uint64_t>(1) << (local_value % 64));\n            some_mutation_enabled = true;\n          }\n        }\n        if (pos == std::string::npos) {\n          break;\n        }\n        contents.erase(0, pos + 1);\n      }\n    }\n    initialized = true;\n    __dredd_some_mutation_enabled = some_mutation_enabled;\n  }\n  return (enabled_bitset[local_mutation_id / 64] & (static_cast<uint64_t>(1) << (local_mutation_id % 64))) != 0;\n}\n\nstatic int __dredd_replace_expr_int_constant(int arg, int local_mutation_id) {\n  if (!__dredd_some_mutation_enabled) return arg;\n  if (__dredd_enabled_mutation(local_mutation_id + 0)) return ~(arg);\n  if (__dredd_enabled_mutation(local_mutation_id + 1)) return -(arg);\n  if (__dredd_enabled_mutation(local_mutation_id + 2)) return 0;\n  if (__dredd_enabled_mutation(local_mutation_id + 3)) return 1;\n  if (__dredd_enabled_mutation(local_mutation_id + 4)) return -1;\n  return arg;\n}\n\nstatic int __dredd_replace_expr_int(int arg, int local_mutation_id) {\n  if (!__dredd_some_mutation_enabled) return arg;\n  if (__dredd_enabled_mutation(local_mutation_id + 0)) return !(arg);\n  if (__dredd_enabled_mutation(local_mutation_id + 1)) return ~(arg);\n  if (__dredd_enabled_mutation(local_mutation_id + 2)) return -(arg);\n  if (__dredd_enabled_mutation(local_mutation_id + 3)) return 0;\n  if (__dredd_enabled_mutation(local_mutation_id + 4)) return 1;\n  if (__dredd_enabled_mutation(local_mutation_id + 5)) return -1;\n  return arg;\n}\n\nvoid foo() {\n  int x = __dredd_replace_expr_int_constant(2, 0);\n  // It is important that \"x\" is not mutated in \"[x]\"\n  auto f = [x]() { if (!__dredd_enabled_mutation(11)) { return __dredd_replace_expr_int(x, 5); } };\n}\n"
    noopt := "// DREDD PRELUDE START\n// If this has been inserted at an inappropriate place in a source file,\n// declare a placeholder function with the following signature to\n// mandate where the prelude should be placed:\n//\n// void __dredd_prelude_start();\n//\n#include <atomic>\n#include <cinttypes>\n#include <cstddef>\n#include <fstream>\n#include <functional>\n#include <sstream>\n#include <string>\n\n\n#ifdef _MSC_VER\n#define thread_local __declspec(thread)\n#elif __APPLE__\n#define thread_local __thread\n#endif\n\nstatic thread_local bool __dredd_some_mutation_enabled = true;\nstatic bool __dredd_enabled_mutation(int local_mutation_id) {\n  static thread_local bool initialized = false;\n  static thread_local uint64_t enabled_bitset[1];\n  if (!initialized) {\n    bool some_mutation_enabled = false;\n    const char* dredd_environment_variable = std::getenv(\"DREDD_ENABLED_MUTATION\");\n    if (dredd_environment_variable != nullptr) {\n      std::string contents(dredd_environment_variable);\n      while (true) {\n        size_t pos = contents.find(\",\");\n        std::string token = (pos == std::string::npos ? contents : contents.substr(0, pos));\n        if (!token.empty()) {\n          int value = std::stoi(token);\n          int local_value = value - 0;\n          if (local_value >= 0 && local_value < 13) {\n            enabled_bitset[local_value / 64] |= (static_cast<uint64_t>(1) << (local_value % 64));\n            some_mutation_enabled = true;\n          }\n        }\n        if (pos == std::string::npos) {\n          break;\n        }\n        contents.erase(0, pos + 1);\n      }\n    }\n    initialized = true;\n    __dredd_some_mutation_enabled = some_mutation_enabled;\n  }\n  return (enabled_bitset[local_mutation_id / 64] & (static_cast<uint64_t>(1) << (local_mutation_id % 64))) != 0;\n}\n\nstatic int __dredd_replace_expr_int(int arg, int local_mutation_id) {\n  if (!__dredd_some_mutation_enabled) return arg;\n  if (__dredd_enabled_mutation(local_mutation_id + 0)) return !(arg);\n  if (__dredd_enabled_mutation(local_mutation_id + 1)) return ~(arg);\n  if (__dredd_enabled_mutation(local_mutation_id + 2)) return -(arg);\n  if (__dredd_enabled_mutation(local_mutation_id + 3)) return 0;\n  if (__dredd_enabled_mutation(local_mutation_id + 4)) return 1;\n  if (__dredd_enabled_mutation(local_mutation_id + 5)) return -1;\n  return arg;\n}\n\nvoid foo() {\n  int x = __dredd_replace_expr_int(2, 0);\n  // It is important that \"x\" is not mutated in \"[x]\"\n  auto f = [x]() { if (!__dredd_enabled_mutation(12)) { return __dredd_replace_expr_int(x, 6); } };\n}\n" }

#guard lambda_capture_cc.ok

/-- test/single_file/macro_pasting.c -/
def macro_pasting_c : Case :=
  let src : Text := t!"#define MINUS -\n#define ONE 1\n\nint a () {\n  return MINUS ONE;\n}\n\n#define ADD_SUFFIX(X) X##L\n\n#define NUM_L -ADD_SUFFIX(2)\n\nint b () {\n  return NUM_L;\n}\n\n#define ADD_PARENS(X) (X)\n\n#define NUM_PARENS ADD_PARENS(5)\n\nint c() {\n  return NUM_PARENS;\n}\n"
  { name := "macro_pasting.c", lang := c, src := src, ast :=
    .decl ⟨.tu, none⟩ [
     .decl ⟨.func false none, (some ⟨31, 63⟩)⟩ [
      st src .compound .plain (some ⟨40, 63⟩) [
       st src .other .plain (some ⟨44, 60⟩) [
        ex src (.unary .minus) (some .int) .plain 51 (some ⟨51, 60⟩) (fun f => { f with intVal := some (-1), boolVal := some true }) [
         ex src .other (some .int) .operand 57 (some ⟨57, 60⟩) (fun f => { f with intVal := some 1, boolVal := some true }) []]]]],
     .decl ⟨.func false none, (some ⟨123, 151⟩)⟩ [
      st src .compound .plain (some ⟨132, 151⟩) [
       st src .other .plain none [
        ex src (.cast true false) (some .int) .plain 143 none (fun f => { f with intVal := some (-2), boolVal := some true }) [
         ex src (.unary .minus) (some .long) .operand 143 none (fun f => { f with intVal := some (-2), boolVal := some true }) [
          ex src .other (some .long) .operand 143 none (fun f => { f with intVal := some 2, boolVal := some true }) []]]]]],
     .decl ⟨.func false none, (some ⟨214, 246⟩)⟩ [
      st src .compound .plain (some ⟨222, 246⟩) [
       st src .other .plain (some ⟨226, 243⟩) [
        ex src .paren (some .int) .plain 233 (some ⟨233, 243⟩) (fun f => { f with intVal := some 5, boolVal := some true }) [
         ex src .other (some .int) .plain 233 none (fun f => { f with intVal := some 5, boolVal := some true }) []]]]]]
    expected := "// DREDD PRELUDE START\n// If this has been inserted at an inappropriate place in a source file,\n// declare a placeholder function with the following signature to\n// mandate where the prelude should be placed:\n//\n// void __dredd_prelude_start();\n//\n#include <inttypes.h>\n#include <stdatomic.h>\n#include <stdbool.h>\n#include <stdio.h>\n#include <stdlib.h>\n#include <string.h>\n\n#ifdef _MSC_VER\n#define thread_local __declspec(thread)\n#elif __APPLE__\n#define thread_local __thread\n#else\n#include <threads.h>\n#endif\n\nstatic thread_local int __dredd_some_mutation_enabled = 1;\nstatic bool __dredd_enabled_mutation(int local_mutation_id) {\n  static thread_local int initialized = 0;\n  static thread_local uint64_t enabled_bitset[1];\n  if (!initialized) {\n    int some_mutation_enabled = 0;\n    const char* dredd_environment_variable = getenv(\"DREDD_ENABLED_MUTATION\");\n    if (dredd_environment_variable) {\n      char* temp = malloc(strlen(dredd_environment_variable) + 1);\n      strcpy(temp, dredd_environment_variable);\n      char* token;\n      token = strtok(temp, \",\");\n      while(token) {\n        int value = atoi(token);\n        int local_value = value - 0;\n        if (local_value >= 0 && local_value < 7) {\n          enabled_bitset[local_value / 64] |= ((uint64_t) 1 << (local_value % 64));\n          some_mutation_enabled = 1;\n        }\n        token = strtok(NULL, \",\");\n      }\n      free(temp);\n    }\n    initialized = 1;\n    __dredd_some_mutation_enabled = some_mutation_enabled;\n  }\n  return enabled_bitset[local_mutation_id / 64] & ((uint64_t) 1 << (local_mutation_id % 64));\n}\n\nstatic int __dredd_replace_expr_int_one(int arg, int local_mutation_id) {\n  if (!__dredd_some_mutation_enabled) return arg;\n  if (__dredd_enabled_mutation(local_mutation_id + 0)) return ~(arg);\n  if (__dredd_enabled_mutation(local_mutation_id + 1)) return 0;\n  if (__dredd_enabled_mutation(local_mutation_id + 2)) return -1;\n  return arg;\n}\n\nstatic int __dredd_replace_expr_int_minus_one(int arg, int local_mutation_id) {\n  if (!__dredd_some_mutation_enabled) return arg;\n  if (__dredd_enabled_mutation(local_mutation_id + 0)) return 0;\n  if (__dredd_enabled_mutation(local_mutation_id + 1)) return 1;\n  return arg;\n}\n\n#define MINUS -\n#define ONE 1\n\nint a () {\n  if (!__dredd_enabled_mutation(5)) { return __dredd_replace_expr_int_minus_one(MINUS __dredd_replace_expr_int_one(ONE, 0), 3); }\n}\n\n#define ADD_SUFFIX(X) X##L\n\n#define NUM_L -ADD_SUFFIX(2)\n\nint b () {\n  return NUM_L;\n}\n\n#define ADD_PARENS(X) (X)\n\n#define NUM_PARENS ADD_PARENS(5)\n\nint c() {\n  if (!__dredd_enabled_mutation(6)) { return NUM_PARENS; }\n}\n"
    noopt := "// DREDD PRELUDE START\n// If this has been inserted at an inappropriate place in a source file,\n// declare a placeholder function with the following signature to\n// mandate where the prelude should be placed:\n//\n// void __dredd_prelude_start();\n//\n#include <inttypes.h>\n#include <stdatomic.h>\n#include <stdbool.h>\n#include <stdio.h>\n#include <stdlib.h>\n#include <string.h>\n\n#ifdef _MSC_VER\n#define thread_local __declspec(thread)\n#elif __APPLE__\n#define thread_local __thread\n#else\n#include <threads.h>\n#endif\n\nstatic thread_local int __dredd_some_mutation_enabled = 1;\nstatic bool __dredd_enabled_mutation(int local_mutation_id) {\n  static thread_local int initialized = 0;\n  static thread_local uint64_t enabled_bitset[1];\n  if (!initialized) {\n    int some_mutation_enabled = 0;\n    const char* dredd_environment_variable = getenv(\"DREDD_ENABLED_MUTATION\");\n    if (dredd_environment_variable) {\n      char* temp = malloc(strlen(dredd_environment_variable) + 1);\n      strcpy(temp, dredd_environment_variable);\n      char* token;\n      token = strtok(temp, \",\");\n      while(token) {\n        int value = atoi(token);\n        int local_value = value - 0;\n        if (local_value >= 0 && local_value < 23) {\n          enabled_bitset[local_value / 64] |= ((uint64_t) 1 << (local_value % 64));\n          some_mutation_enabled = 1;\n        }\n        token = strtok(NULL, \",\");\n      }\n      free(temp);\n    }\n    initialized = 1;\n    __dredd_some_mutation_enabled = some_mutation_enabled;\n  }\n  return enabled_bitset[local_mutation_id / 64] & ((uint64_t) 1 << (local_mutation_id % 64));\n}\n\nstatic int __dredd_replace_unary_operator_Minus_int(int arg, int local_mutation_id) {\n  if (!__dredd_some_mutation_enabled) return -arg;\n  if (__dredd_enabled_mutation(local_mutation_id + 0)) return ~arg;\n  if (__dredd_enabled_mutation(local_mutation_id + 1)) return !arg;\n  if (__dredd_enabled_mutation(local_mutation_id + 2)) return arg;\n  return -arg;\n}\n\nstatic int __dredd_replace_expr_int(int arg, int local_mutation_id) {\n  if (!__dredd_some_mutation_enabled) return arg;\n  if (__dredd_enabled_mutation(local_mutation_id + 0)) return !(arg);\n  if (__dredd_enabled_mutation(local_mutation_id + 1)) return ~(arg);\n  if (__dredd_enabled_mutation(local_mutation_id + 2)) return -(arg);\n  if (__dredd_enabled_mutation(local_mutation_id + 3)) return 0;\n  if (__dredd_enabled_mutation(local_mutation_id + 4)) return 1;\n  if (__dredd_enabled_mutation(local_mutation_id + 5)) return -1;\n  return arg;\n}\n\n#define MINUS -\n#define ONE 1\n\nint a () {\n  if (!__dredd_enabled_mutation(15)) { return __dredd_replace_expr_int(__dredd_replace_unary_operator_Minus_int(MINUS __dredd_replace_expr_int(ONE, 0), 6), 9); }\n}\n\n#define ADD_SUFFIX(X) X##L\n\n#define NUM_L -ADD_SUFFIX(2)\n\nint b () {\n  return NUM_L;\n}\n\n#define ADD_PARENS(X) (X)\n\n#define NUM_PARENS ADD_PARENS(5)\n\nint c() {\n  if (!__dredd_enabled_mutation(22)) { return __dredd_replace_expr_int(NUM_PARENS, 16); }\n}\n" }

#guard macro_pasting_c.ok

end Dredd.Tests
