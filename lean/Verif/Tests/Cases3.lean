/-
Tests, not proofs: files of /repo/test/single_file, part 3.  Each case has the source, the
syntax tree of the source and the output that the repository expects for it, with and
without optimisations.  The trees were made by a program that parses the sources.
-/
import Verif.Tests.Case

namespace Dredd.Tests

/-- test/single_file/left_shift_opt.c -/
def left_shift_opt_c : Case :=
  let src : Text := t!"int main() {\n  int x = 0 << 1;\n}\n"
  { name := "left_shift_opt.c", lang := c, src := src, ast :=
    .decl ⟨.tu, none⟩ [
     .decl ⟨.func false none, (some ⟨0, 32⟩)⟩ [
      st src .compound .plain (some ⟨11, 32⟩) [
       st src .declStmt .plain (some ⟨15, 30⟩) [
        .decl ⟨.var ⟨19, false, [], [], false, false, false⟩, (some ⟨15, 29⟩)⟩ [
         ex src (.binary .shl) (some .int) .plain 23 (some ⟨23, 29⟩) (fun f => { f with intVal := some 0, boolVal := some false, opOff := some 25 }) [
          ex src .other (some .int) .lhs 23 (some ⟨23, 24⟩) (fun f => { f with intVal := some 0, boolVal := some false, nullConst := true }) [],
          ex src .other (some .int) .rhs 28 (some ⟨28, 29⟩) (fun f => { f with intVal := some 1, boolVal := some true }) []]]]]]]
    expected := "// DREDD PRELUDE START\n// If this has been inserted at an inappropriate place in a source file,\n// declare a placeholder function with the following signature to\n// mandate where the prelude should be placed:\n//\n// void __dredd_prelude_start();\n//\n#include <inttypes.h>\n#include <stdatomic.h>\n#include <stdbool.h>\n#include <stdio.h>\n#include <stdlib.h>\n#include <string.h>\n\n#ifdef _MSC_VER\n#define thread_local __declspec(thread)\n#elif __APPLE__\n#define thread_local __thread\n#else\n#include <threads.h>\n#endif\n\nstatic thread_local int __dredd_some_mutation_enabled = 1;\nstatic bool __dredd_enabled_mutation(int local_mutation_id) {\n  static thread_local int initialized = 0;\n  static thread_local uint64_t enabled_bitset[1];\n  if (!initialized) {\n    int some_mutation_enabled = 0;\n    const char* dredd_environment_variable = getenv(\"DREDD_ENABLED_MUTATION\");\n    if (dredd_environment_variable) {\n      char* temp = malloc(strlen(dredd_environment_variable) + 1);\n      strcpy(temp, dredd_environment_variable);\n      char* token;\n      token = strtok(temp, \",\");\n      while(token) {\n        int value = atoi(token);\n        int local_value = value - 0;\n        if (local_value >= 0 && local_value < 7) {\n          enabled_bitset[local_value / 64] |= ((uint64_t) 1 << (local_value % 64));\n          some_mutation_enabled = 1;\n        }\n        token = strtok(NULL, \",\");\n      }\n      free(temp);\n    }\n    initialized = 1;\n    __dredd_some_mutation_enabled = some_mutation_enabled;\n  }\n  return enabled_bitset[local_mutation_id / 64] & ((uint64_t) 1 << (local_mutation_id % 64));\n}\n\nstatic int __dredd_replace_expr_int_zero(int arg, int local_mutation_id) {\n  if (!__dredd_some_mutation_enabled) return arg;\n  if (__dredd_enabled_mutation(local_mutation_id + 0)) return 1;\n  if (__dredd_enabled_mutation(local_mutation_id + 1)) return -1;\n  return arg;\n}\n\nstatic int __dredd_replace_expr_int_one(int arg, int local_mutation_id) {\n  if (!__dredd_some_mutation_enabled) return arg;\n  if (__dredd_enabled_mutation(local_mutation_id + 0)) return ~(arg);\n  if (__dredd_enabled_mutation(local_mutation_id + 1)) return 0;\n  if (__dredd_enabled_mutation(local_mutation_id + 2)) return -1;\n  return arg;\n}\n\nint main() {\n  int x = __dredd_replace_expr_int_zero(__dredd_replace_expr_int_zero(0, 0) << __dredd_replace_expr_int_one(1, 2), 5);\n}\n"
    noopt := "// DREDD PRELUDE START\n// If this has been inserted at an inappropriate place in a source file,\n// declare a placeholder function with the following signature to\n// mandate where the prelude should be placed:\n//\n// void __dredd_prelude_start();\n//\n#include <inttypes.h>\n#include <stdatomic.h>\n#include <stdbool.h>\n#include <stdio.h>\n#include <stdlib.h>\n#include <string.h>\n\n#ifdef _MSC_VER\n#define thread_local __declspec(thread)\n#elif __APPLE__\n#define thread_local __thread\n#else\n#include <threads.h>\n#endif\n\nstatic thread_local int __dredd_some_mutation_enabled = 1;\nstatic bool __dredd_enabled_mutation(int local_mutation_id) {\n  static thread_local int initialized = 0;\n  static thread_local uint64_t enabled_bitset[1];\n  if (!initialized) {\n    int some_mutation_enabled = 0;\n    const char* dredd_environment_variable = getenv(\"DREDD_ENABLED_MUTATION\");\n    if (dredd_environment_variable) {\n      char* temp = malloc(strlen(dredd_environment_variable) + 1);\n      strcpy(temp, dredd_environment_variable);\n      char* token;\n      token = strtok(temp, \",\");\n      while(token) {\n        int value = atoi(token);\n        int local_value = value - 0;\n        if (local_value >= 0 && local_value < 21) {\n          enabled_bitset[local_value / 64] |= ((uint64_t) 1 << (local_value % 64));\n          some_mutation_enabled = 1;\n        }\n        token = strtok(NULL, \",\");\n      }\n      free(temp);\n    }\n    initialized = 1;\n    __dredd_some_mutation_enabled = some_mutation_enabled;\n  }\n  return enabled_bitset[local_mutation_id / 64] & ((uint64_t) 1 << (local_mutation_id % 64));\n}\n\nstatic int __dredd_replace_expr_int(int arg, int local_mutation_id) {\n  if (!__dredd_some_mutation_enabled) return arg;\n  if (__dredd_enabled_mutation(local_mutation_id + 0)) return !(arg);\n  if (__dredd_enabled_mutation(local_mutation_id + 1)) return ~(arg);\n  if (__dredd_enabled_mutation(local_mutation_id + 2)) return -(arg);\n  if (__dredd_enabled_mutation(local_mutation_id + 3)) return 0;\n  if (__dredd_enabled_mutation(local_mutation_id + 4)) return 1;\n  if (__dredd_enabled_mutation(local_mutation_id + 5)) return -1;\n  return arg;\n}\n\nstatic int __dredd_replace_binary_operator_Shl_arg1_int_arg2_int(int arg1, int arg2, int local_mutation_id) {\n  if (!__dredd_some_mutation_enabled) return arg1 << arg2;\n  if (__dredd_enabled_mutation(local_mutation_id + 0)) return arg1 >> arg2;\n  if (__dredd_enabled_mutation(local_mutation_id + 1)) return arg1;\n  if (__dredd_enabled_mutation(local_mutation_id + 2)) return arg2;\n  return arg1 << arg2;\n}\n\nint main() {\n  int x = __dredd_replace_expr_int(__dredd_replace_binary_operator_Shl_arg1_int_arg2_int(__dredd_replace_expr_int(0, 0) , __dredd_replace_expr_int(1, 6), 12), 15);\n}\n" }

#guard left_shift_opt_c.ok

/-- test/single_file/left_shift_opt.cc -/
def left_shift_opt_cc : Case :=
  let src : Text := t!"int main() {\n  int x = 0 << 1;\n}\n"
  { name := "left_shift_opt.cc", lang := cpp, src := src, ast :=
    .decl ⟨.tu, none⟩ [
     .decl ⟨.func false none, (some ⟨0, 32⟩)⟩ [
      st src .compound .plain (some ⟨11, 32⟩) [
       st src .declStmt .plain (some ⟨15, 30⟩) [
        .decl ⟨.var ⟨19, false, [], [], false, false, false⟩, (some ⟨15, 29⟩)⟩ [
         ex src (.binary .shl) (some .int) .plain 23 (some ⟨23, 29⟩) (fun f => { f with intVal := some 0, boolVal := some false, cxx11Const := true, opOff := some 25 }) [
          ex src .other (some .int) .lhs 23 (some ⟨23, 24⟩) (fun f => { f with intVal := some 0, boolVal := some false, cxx11Const := true, nullConst := true }) [],
          ex src .other (some .int) .rhs 28 (some ⟨28, 29⟩) (fun f => { f with intVal := some 1, boolVal := some true, cxx11Const := true }) []]]]]]]
    expected := "// DREDD PRELUDE START\n// If this has been inserted at an inappropriate place in a source file,\n// declare a placeholder function with the following signature to\n// mandate where the prelude should be placed:\n//\n// void __dredd_prelude_start();\n//\n#include <atomic>\n#include <cinttypes>\n#include <cstddef>\n#include <fstream>\n#include <functional>\n#include <sstream>\n#include <string>\n\n\n#ifdef _MSC_VER\n#define thread_local __declspec(thread)\n#elif __APPLE__\n#define thread_local __thread\n#endif\n\nstatic thread_local bool __dredd_some_mutation_enabled = true;\nstatic bool __dredd_enabled_mutation(int local_mutation_id) {\n  static thread_local bool initialized = false;\n  static thread_local uint64_t enabled_bitset[1];\n  if (!initialized) {\n    bool some_mutation_enabled = false;\n    const char* dredd_environment_variable = std::getenv(\"DREDD_ENABLED_MUTATION\");\n    if (dredd_environment_variable != nullptr) {\n      std::string contents(dredd_environment_variable);\n      while (true) {\n        size_t pos = contents.find(\",\");\n        std::string token = (pos == std::string::npos ? contents : contents.substr(0, pos));\n        if (!token.empty()) {\n          int value = std::stoi(token);\n          int local_value = value - 0;\n          if (local_value >= 0 && local_value < 7) {\n            enabled_bitset[local_value / 64] |= (static_cast<uint64_t>(1) << (local_value % 64));\n            some_mutation_enabled = true;\n          }\n        }\n        if (pos == std::string::npos) {\n          break;\n        }\n        contents.erase(0, pos + 1);\n      }\n    }\n    initialized = true;\n    __dredd_some_mutation_enabled = some_mutation_enabled;\n  }\n  return (enabled_bitset[local_mutation_id / 64] & (static_cast<uint64_t>(1) << (local_mutation_id % 64))) != 0;\n}\n\nstatic int __dredd_replace_expr_int_zero(int arg, int local_mutation_id) {\n  if (!__dredd_some_mutation_enabled) return arg;\n  if (__dredd_enabled_mutation(local_mutation_id + 0)) return 1;\n  if (__dredd_enabled_mutation(local_mutation_id + 1)) return -1;\n  return arg;\n}\n\nstatic int __dredd_replace_expr_int_one(int arg, int local_mutation_id) {\n  if (!__dredd_some_mutation_enabled) return arg;\n  if (__dredd_enabled_mutation(local_mutation_id + 0)) return ~(arg);\n  if (__dredd_enabled_mutation(local_mutation_id + 1)) return 0;\n  if (__dredd_enabled_mutation(local_mutation_id + 2)) return -1;\n  return arg;\n}\n\nint main() {\n  int x = __dredd_replace_expr_int_zero(__dredd_replace_expr_int_zero(0, 0) << __dredd_replace_expr_int_one(1, 2), 5);\n}\n"
    noopt := "// DREDD PRELUDE START\n// If this has been inserted at an inappropriate place in a source file,\n// declare a placeholder function with the following signature to\n// mandate where the prelude should be placed:\n//\n// void __dredd_prelude_start();\n//\n#include <atomic>\n#include <cinttypes>\n#include <cstddef>\n#include <fstream>\n#include <functional>\n#include <sstream>\n#include <string>\n\n\n#ifdef _MSC_VER\n#define thread_local __declspec(thread)\n#elif __APPLE__\n#define thread_local __thread\n#endif\n\nstatic thread_local bool __dredd_some_mutation_enabled = true;\nstatic bool __dredd_enabled_mutation(int local_mutation_id) {\n  static thread_local bool initialized = false;\n  static thread_local uint64_t enabled_bitset[1];\n  if (!initialized) {\n    bool some_mutation_enabled = false;\n    const char* dredd_environment_variable = std::getenv(\"DREDD_ENABLED_MUTATION\");\n    if (dredd_environment_variable != nullptr) {\n      std::string contents(dredd_environment_variable);\n      while (true) {\n        size_t pos = contents.find(\",\");\n        std::string token = (pos == std::string::npos ? contents : contents.substr(0, pos));\n        if (!token.empty()) {\n          int value = std::stoi(token);\n          int local_value = value - 0;\n          if (local_value >= 0 && local_value < 21) {\n            enabled_bitset[local_value / 64] |= (static_cast<uint64_t>(1) << (local_value % 64));\n            some_mutation_enabled = true;\n          }\n        }\n        if (pos == std::string::npos) {\n          break;\n        }\n        contents.erase(0, pos + 1);\n      }\n    }\n    initialized = true;\n    __dredd_some_mutation_enabled = some_mutation_enabled;\n  }\n  return (enabled_bitset[local_mutation_id / 64] & (static_cast<uint64_t>(1) << (local_mutation_id % 64))) != 0;\n}\n\nstatic int __dredd_replace_expr_int(int arg, int local_mutation_id) {\n  if (!__dredd_some_mutation_enabled) return arg;\n  if (__dredd_enabled_mutation(local_mutation_id + 0)) return !(arg);\n  if (__dredd_enabled_mutation(local_mutation_id + 1)) return ~(arg);\n  if (__dredd_enabled_mutation(local_mutation_id + 2)) return -(arg);\n  if (__dredd_enabled_mutation(local_mutation_id + 3)) return 0;\n  if (__dredd_enabled_mutation(local_mutation_id + 4)) return 1;\n  if (__dredd_enabled_mutation(local_mutation_id + 5)) return -1;\n  return arg;\n}\n\nstatic int __dredd_replace_binary_operator_Shl_arg1_int_arg2_int(int arg1, int arg2, int local_mutation_id) {\n  if (!__dredd_some_mutation_enabled) return arg1 << arg2;\n  if (__dredd_enabled_mutation(local_mutation_id + 0)) return arg1 >> arg2;\n  if (__dredd_enabled_mutation(local_mutation_id + 1)) return arg1;\n  if (__dredd_enabled_mutation(local_mutation_id + 2)) return arg2;\n  return arg1 << arg2;\n}\n\nint main() {\n  int x = __dredd_replace_expr_int(__dredd_replace_binary_operator_Shl_arg1_int_arg2_int(__dredd_replace_expr_int(0, 0) , __dredd_replace_expr_int(1, 6), 12), 15);\n}\n" }

#guard left_shift_opt_cc.ok

/-- test/single_file/misc002.cc -/
def misc002_cc : Case :=
  let src : Text := t!"void f() {\n  if (8 == 24)\n    ;\n}\n"
  { name := "misc002.cc", lang := cpp, src := src, ast :=
    .decl ⟨.tu, none⟩ [
     .decl ⟨.func false none, (some ⟨0, 33⟩)⟩ [
      st src .compound .plain (some ⟨9, 33⟩) [
       st src (.if_ false) .plain (some ⟨13, 31⟩) [
        ex src (.binary .eq) (some .bool) .ifCond 17 (some ⟨17, 24⟩) (fun f => { f with intVal := some 0, boolVal := some false, cxx11Const := true, opOff := some 19 }) [
         ex src .other (some .int) .lhs 17 (some ⟨17, 18⟩) (fun f => { f with intVal := some 8, boolVal := some true, cxx11Const := true }) [],
         ex src .other (some .int) .rhs 22 (some ⟨22, 24⟩) (fun f => { f with intVal := some 24, boolVal := some true, cxx11Const := true }) []],
        st src .null .plain (some ⟨30, 31⟩) []]]]]
    expected := "// DREDD PRELUDE START\n// If this has been inserted at an inappropriate place in a source file,\n// declare a placeholder function with the following signature to\n// mandate where the prelude should be placed:\n//\n// void __dredd_prelude_start();\n//\n#include <atomic>\n#include <cinttypes>\n#include <cstddef>\n#include <fstream>\n#include <functional>\n#include <sstream>\n#include <string>\n\n\n#ifdef _MSC_VER\n#define thread_local __declspec(thread)\n#elif __APPLE__\n#define thread_local __thread\n#endif\n\nstatic thread_local bool __dredd_some_mutation_enabled = true;\nstatic bool __dredd_enabled_mutation(int local_mutation_id) {\n  static thread_local bool initialized = false;\n  static thread_local uint64_t enabled_bitset[1];\n  if (!initialized) {\n    bool some_mutation_enabled = false;\n    const char* dredd_environment_variable = std::getenv(\"DREDD_ENABLED_MUTATION\");\n    if (dredd_environment_variable != nullptr) {\n      std::string contents(dredd_environment_variable);\n      while (true) {\n        size_t pos = contents.find(\",\");\n        std::string token = (pos == std::string::npos ? contents : contents.substr(0, pos));\n        if (!token.empty()) {\n          int value = std::stoi(token);\n          int local_value = value - 0;\n          if (local_value >= 0 && local_value < 13) {\n            enabled_bitset[local_value / 64] |= (static_cast<uint64_t>(1) << (local_value % 64));\n            some_mutation_enabled = true;\n          }\n        }\n        if (pos == std::string::npos) {\n          break;\n        }\n        contents.erase(0, pos + 1);\n      }\n    }\n    initialized = true;\n    __dredd_some_mutation_enabled = some_mutation_enabled;\n  }\n  return (enabled_bitset[local_mutation_id / 64] & (static_cast<uint64_t>(1) << (local_mutation_id % 64))) != 0;\n}\n\nstatic int __dredd_replace_expr_int_constant(int arg, int local_mutation_id) {\n  if (!__dredd_some_mutation_enabled) return arg;\n  if (__dredd_enabled_mutation(local_mutation_id + 0)) return ~(arg);\n  if (__dredd_enabled_mutation(local_mutation_id + 1)) return -(arg);\n  if (__dredd_enabled_mutation(local_mutation_id + 2)) return 0;\n  if (__dredd_enabled_mutation(local_mutation_id + 3)) return 1;\n  if (__dredd_enabled_mutation(local_mutation_id + 4)) return -1;\n  return arg;\n}\n\nstatic bool __dredd_replace_expr_bool_false_omit_true(bool arg, int local_mutation_id) {\n  if (!__dredd_some_mutation_enabled) return arg;\n  return arg;\n}\n\nstatic bool __dredd_replace_binary_operator_EQ_arg1_int_arg2_int(int arg1, int arg2, int local_mutation_id) {\n  if (!__dredd_some_mutation_enabled) return arg1 == arg2;\n  if (__dredd_enabled_mutation(local_mutation_id + 0)) return arg1 >= arg2;\n  if (__dredd_enabled_mutation(local_mutation_id + 1)) return arg1 <= arg2;\n  return arg1 == arg2;\n}\n\nvoid f() {\n  if (!__dredd_enabled_mutation(12)) { if (__dredd_replace_expr_bool_false_omit_true(__dredd_replace_binary_operator_EQ_arg1_int_arg2_int(__dredd_replace_expr_int_constant(8, 0) , __dredd_replace_expr_int_constant(24, 5), 10), 12))\n    ; }\n}\n"
    noopt := "// DREDD PRELUDE START\n// If this has been inserted at an inappropriate place in a source file,\n// declare a placeholder function with the following signature to\n// mandate where the prelude should be placed:\n//\n// void __dredd_prelude_start();\n//\n#include <atomic>\n#include <cinttypes>\n#include <cstddef>\n#include <fstream>\n#include <functional>\n#include <sstream>\n#include <string>\n\n\n#ifdef _MSC_VER\n#define thread_local __declspec(thread)\n#elif __APPLE__\n#define thread_local __thread\n#endif\n\nstatic thread_local bool __dredd_some_mutation_enabled = true;\nstatic bool __dredd_enabled_mutation(int local_mutation_id) {\n  static thread_local bool initialized = false;\n  static thread_local uint64_t enabled_bitset[1];\n  if (!initialized) {\n    bool some_mutation_enabled = false;\n    const char* dredd_environment_variable = std::getenv(\"DREDD_ENABLED_MUTATION\");\n    if (dredd_environment_variable != nullptr) {\n      std::string contents(dredd_environment_variable);\n      while (true) {\n        size_t pos = contents.find(\",\");\n        std::string token = (pos == std::string::npos ? contents : contents.substr(0, pos));\n        if (!token.empty()) {\n          int value = std::stoi(token);\n          int local_value = value - 0;\n          if (local_value >= 0 && local_value < 23) {\n            enabled_bitset[local_value / 64] |= (static_cast<uint64_t>(1) << (local_value % 64));\n            some_mutation_enabled = true;\n          }\n        }\n        if (pos == std::string::npos) {\n          break;\n        }\n        contents.erase(0, pos + 1);\n      }\n    }\n    initialized = true;\n    __dredd_some_mutation_enabled = some_mutation_enabled;\n  }\n  return (enabled_bitset[local_mutation_id / 64] & (static_cast<uint64_t>(1) << (local_mutation_id % 64))) != 0;\n}\n\nstatic int __dredd_replace_expr_int(int arg, int local_mutation_id) {\n  if (!__dredd_some_mutation_enabled) return arg;\n  if (__dredd_enabled_mutation(local_mutation_id + 0)) return !(arg);\n  if (__dredd_enabled_mutation(local_mutation_id + 1)) return ~(arg);\n  if (__dredd_enabled_mutation(local_mutation_id + 2)) return -(arg);\n  if (__dredd_enabled_mutation(local_mutation_id + 3)) return 0;\n  if (__dredd_enabled_mutation(local_mutation_id + 4)) return 1;\n  if (__dredd_enabled_mutation(local_mutation_id + 5)) return -1;\n  return arg;\n}\n\nstatic bool __dredd_replace_expr_bool(bool arg, int local_mutation_id) {\n  if (!__dredd_some_mutation_enabled) return arg;\n  if (__dredd_enabled_mutation(local_mutation_id + 0)) return !(arg);\n  if (__dredd_enabled_mutation(local_mutation_id + 1)) return true;\n  if (__dredd_enabled_mutation(local_mutation_id + 2)) return false;\n  return arg;\n}\n\nstatic bool __dredd_replace_binary_operator_EQ_arg1_int_arg2_int(int arg1, int arg2, int local_mutation_id) {\n  if (!__dredd_some_mutation_enabled) return arg1 == arg2;\n  if (__dredd_enabled_mutation(local_mutation_id + 0)) return arg1 != arg2;\n  if (__dredd_enabled_mutation(local_mutation_id + 1)) return arg1 >= arg2;\n  if (__dredd_enabled_mutation(local_mutation_id + 2)) return arg1 > arg2;\n  if (__dredd_enabled_mutation(local_mutation_id + 3)) return arg1 <= arg2;\n  if (__dredd_enabled_mutation(local_mutation_id + 4)) return arg1 < arg2;\n  if (__dredd_enabled_mutation(local_mutation_id + 5)) return arg1;\n  if (__dredd_enabled_mutation(local_mutation_id + 6)) return arg2;\n  return arg1 == arg2;\n}\n\nvoid f() {\n  if (!__dredd_enabled_mutation(22)) { if (__dredd_replace_expr_bool(__dredd_replace_binary_operator_EQ_arg1_int_arg2_int(__dredd_replace_expr_int(8, 0) , __dredd_replace_expr_int(24, 6), 12), 19))\n    ; }\n}\n" }

#guard misc002_cc.ok

/-- test/single_file/negative_switch_case.c -/
def negative_switch_case_c : Case :=
  let src : Text := t!"int main() {\n  switch(0) {\n  case -1:\n    break;\n  default:\n    break;\n  }\n}\n"
  { name := "negative_switch_case.c", lang := c, src := src, ast :=
    .decl ⟨.tu, none⟩ [
     .decl ⟨.func false none, (some ⟨0, 76⟩)⟩ [
      st src .compound .plain (some ⟨11, 76⟩) [
       st src .other .plain (some ⟨15, 74⟩) [
        ex src .other (some .int) .plain 22 (some ⟨22, 23⟩) (fun f => { f with intVal := some 0, boolVal := some false, nullConst := true }) [],
        st src .compound .plain (some ⟨25, 74⟩) [
         st src .case_ .plain (some ⟨29, 47⟩) [
          ex src (.unary .minus) (some .int) .plain 34 (some ⟨34, 36⟩) (fun f => { f with intVal := some (-1), boolVal := some true, opOff := some 34 }) [
           ex src .other (some .int) .operand 35 (some ⟨35, 36⟩) (fun f => { f with intVal := some 1, boolVal := some true }) []],
          st src .other .plain (some ⟨42, 47⟩) []],
         st src .default_ .plain (some ⟨51, 69⟩) [
          st src .other .plain (some ⟨64, 69⟩) []]]]]]]
    expected := "// DREDD PRELUDE START\n// If this has been inserted at an inappropriate place in a source file,\n// declare a placeholder function with the following signature to\n// mandate where the prelude should be placed:\n//\n// void __dredd_prelude_start();\n//\n#include <inttypes.h>\n#include <stdatomic.h>\n#include <stdbool.h>\n#include <stdio.h>\n#include <stdlib.h>\n#include <string.h>\n\n#ifdef _MSC_VER\n#define thread_local __declspec(thread)\n#elif __APPLE__\n#define thread_local __thread\n#else\n#include <threads.h>\n#endif\n\nstatic thread_local int __dredd_some_mutation_enabled = 1;\nstatic bool __dredd_enabled_mutation(int local_mutation_id) {\n  static thread_local int initialized = 0;\n  static thread_local uint64_t enabled_bitset[1];\n  if (!initialized) {\n    int some_mutation_enabled = 0;\n    const char* dredd_environment_variable = getenv(\"DREDD_ENABLED_MUTATION\");\n    if (dredd_environment_variable) {\n      char* temp = malloc(strlen(dredd_environment_variable) + 1);\n      strcpy(temp, dredd_environment_variable);\n      char* token;\n      token = strtok(temp, \",\");\n      while(token) {\n        int value = atoi(token);\n        int local_value = value - 0;\n        if (local_value >= 0 && local_value < 5) {\n          enabled_bitset[local_value / 64] |= ((uint64_t) 1 << (local_value % 64));\n          some_mutation_enabled = 1;\n        }\n        token = strtok(NULL, \",\");\n      }\n      free(temp);\n    }\n    initialized = 1;\n    __dredd_some_mutation_enabled = some_mutation_enabled;\n  }\n  return enabled_bitset[local_mutation_id / 64] & ((uint64_t) 1 << (local_mutation_id % 64));\n}\n\nstatic int __dredd_replace_expr_int_zero(int arg, int local_mutation_id) {\n  if (!__dredd_some_mutation_enabled) return arg;\n  if (__dredd_enabled_mutation(local_mutation_id + 0)) return 1;\n  if (__dredd_enabled_mutation(local_mutation_id + 1)) return -1;\n  return arg;\n}\n\nint main() {\n  if (!__dredd_enabled_mutation(4)) { switch(__dredd_replace_expr_int_zero(0, 0)) {\n  case -1:\n    if (!__dredd_enabled_mutation(2)) { break; }\n  default:\n    if (!__dredd_enabled_mutation(3)) { break; }\n  } }\n}\n"
    noopt := "// DREDD PRELUDE START\n// If this has been inserted at an inappropriate place in a source file,\n// declare a placeholder function with the following signature to\n// mandate where the prelude should be placed:\n//\n// void __dredd_prelude_start();\n//\n#include <inttypes.h>\n#include <stdatomic.h>\n#include <stdbool.h>\n#include <stdio.h>\n#include <stdlib.h>\n#include <string.h>\n\n#ifdef _MSC_VER\n#define thread_local __declspec(thread)\n#elif __APPLE__\n#define thread_local __thread\n#else\n#include <threads.h>\n#endif\n\nstatic thread_local int __dredd_some_mutation_enabled = 1;\nstatic bool __dredd_enabled_mutation(int local_mutation_id) {\n  static thread_local int initialized = 0;\n  static thread_local uint64_t enabled_bitset[1];\n  if (!initialized) {\n    int some_mutation_enabled = 0;\n    const char* dredd_environment_variable = getenv(\"DREDD_ENABLED_MUTATION\");\n    if (dredd_environment_variable) {\n      char* temp = malloc(strlen(dredd_environment_variable) + 1);\n      strcpy(temp, dredd_environment_variable);\n      char* token;\n      token = strtok(temp, \",\");\n      while(token) {\n        int value = atoi(token);\n        int local_value = value - 0;\n        if (local_value >= 0 && local_value < 9) {\n          enabled_bitset[local_value / 64] |= ((uint64_t) 1 << (local_value % 64));\n          some_mutation_enabled = 1;\n        }\n        token = strtok(NULL, \",\");\n      }\n      free(temp);\n    }\n    initialized = 1;\n    __dredd_some_mutation_enabled = some_mutation_enabled;\n  }\n  return enabled_bitset[local_mutation_id / 64] & ((uint64_t) 1 << (local_mutation_id % 64));\n}\n\nstatic int __dredd_replace_expr_int(int arg, int local_mutation_id) {\n  if (!__dredd_some_mutation_enabled) return arg;\n  if (__dredd_enabled_mutation(local_mutation_id + 0)) return !(arg);\n  if (__dredd_enabled_mutation(local_mutation_id + 1)) return ~(arg);\n  if (__dredd_enabled_mutation(local_mutation_id + 2)) return -(arg);\n  if (__dredd_enabled_mutation(local_mutation_id + 3)) return 0;\n  if (__dredd_enabled_mutation(local_mutation_id + 4)) return 1;\n  if (__dredd_enabled_mutation(local_mutation_id + 5)) return -1;\n  return arg;\n}\n\nint main() {\n  if (!__dredd_enabled_mutation(8)) { switch(__dredd_replace_expr_int(0, 0)) {\n  case -1:\n    if (!__dredd_enabled_mutation(6)) { break; }\n  default:\n    if (!__dredd_enabled_mutation(7)) { break; }\n  } }\n}\n" }

#guard negative_switch_case_c.ok

/-- test/single_file/negative_switch_case.cc -/
def negative_switch_case_cc : Case :=
  let src : Text := t!"int main() {\n  switch(0) {\n  case -1:\n    break;\n  default:\n    break;\n  }\n}\n"
  { name := "negative_switch_case.cc", lang := cpp, src := src, ast :=
    .decl ⟨.tu, none⟩ [
     .decl ⟨.func false none, (some ⟨0, 76⟩)⟩ [
      st src .compound .plain (some ⟨11, 76⟩) [
       st src .other .plain (some ⟨15, 74⟩) [
        ex src .other (some .int) .plain 22 (some ⟨22, 23⟩) (fun f => { f with intVal := some 0, boolVal := some false, cxx11Const := true, nullConst := true }) [],
        st src .compound .plain (some ⟨25, 74⟩) [
         st src .case_ .plain (some ⟨29, 47⟩) [
          ex src (.unary .minus) (some .int) .plain 34 (some ⟨34, 36⟩) (fun f => { f with intVal := some (-1), boolVal := some true, cxx11Const := true, opOff := some 34 }) [
           ex src .other (some .int) .operand 35 (some ⟨35, 36⟩) (fun f => { f with intVal := some 1, boolVal := some true, cxx11Const := true }) []],
          st src .other .plain (some ⟨42, 47⟩) []],
         st src .default_ .plain (some ⟨51, 69⟩) [
          st src .other .plain (some ⟨64, 69⟩) []]]]]]]
    expected := "// DREDD PRELUDE START\n// If this has been inserted at an inappropriate place in a source file,\n// declare a placeholder function with the following signature to\n// mandate where the prelude should be placed:\n//\n// void __dredd_prelude_start();\n//\n#include <atomic>\n#include <cinttypes>\n#include <cstddef>\n#include <fstream>\n#include <functional>\n#include <sstream>\n#include <string>\n\n\n#ifdef _MSC_VER\n#define thread_local __declspec(thread)\n#elif __APPLE__\n#define thread_local __thread\n#endif\n\nstatic thread_local bool __dredd_some_mutation_enabled = true;\nstatic bool __dredd_enabled_mutation(int local_mutation_id) {\n  static thread_local bool initialized = false;\n  static thread_local uint64_t enabled_bitset[1];\n  if (!initialized) {\n    bool some_mutation_enabled = false;\n    const char* dredd_environment_variable = std::getenv(\"DREDD_ENABLED_MUTATION\");\n    if (dredd_environment_variable != nullptr) {\n      std::string contents(dredd_environment_variable);\n      while (true) {\n        size_t pos = contents.find(\",\");\n        std::string token = (pos == std::string::npos ? contents : contents.substr(0, pos));\n        if (!token.empty()) {\n          int value = std::stoi(token);\n          int local_value = value - 0;\n          if (local_value >= 0 && local_value < 5) {\n            enabled_bitset[local_value / 64] |= (static_cast<uint64_t>(1) << (local_value % 64));\n            some_mutation_enabled = true;\n          }\n        }\n        if (pos == std::string::npos) {\n          break;\n        }\n        contents.erase(0, pos + 1);\n      }\n    }\n    initialized = true;\n    __dredd_some_mutation_enabled = some_mutation_enabled;\n  }\n  return (enabled_bitset[local_mutation_id / 64] & (static_cast<uint64_t>(1) << (local_mutation_id % 64))) != 0;\n}\n\nstatic int __dredd_replace_expr_int_zero(int arg, int local_mutation_id) {\n  if (!__dredd_some_mutation_enabled) return arg;\n  if (__dredd_enabled_mutation(local_mutation_id + 0)) return 1;\n  if (__dredd_enabled_mutation(local_mutation_id + 1)) return -1;\n  return arg;\n}\n\nint main() {\n  if (!__dredd_enabled_mutation(4)) { switch(__dredd_replace_expr_int_zero(0, 0)) {\n  case -1:\n    if (!__dredd_enabled_mutation(2)) { break; }\n  default:\n    if (!__dredd_enabled_mutation(3)) { break; }\n  } }\n}\n"
    noopt := "// DREDD PRELUDE START\n// If this has been inserted at an inappropriate place in a source file,\n// declare a placeholder function with the following signature to\n// mandate where the prelude should be placed:\n//\n// void __dredd_prelude_start();\n//\n#include <atomic>\n#include <cinttypes>\n#include <cstddef>\n#include <fstream>\n#include <functional>\n#include <sstream>\n#include <string>\n\n\n#ifdef _MSC_VER\n#define thread_local __declspec(thread)\n#elif __APPLE__\n#define thread_local __thread\n#endif\n\nstatic thread_local bool __dredd_some_mutation_enabled = true;\nstatic bool __dredd_enabled_mutation(int local_mutation_id) {\n  static thread_local bool initialized = false;\n  static thread_local uint64_t enabled_bitset[1];\n  if (!initialized) {\n    bool some_mutation_enabled = false;\n    const char* dredd_environment_variable = std::getenv(\"DREDD_ENABLED_MUTATION\");\n    if (dredd_environment_variable != nullptr) {\n      std::string contents(dredd_environment_variable);\n      while (true) {\n        size_t pos = contents.find(\",\");\n        std::string token = (pos == std::string::npos ? contents : contents.substr(0, pos));\n        if (!token.empty()) {\n          int value = std::stoi(token);\n          int local_value = value - 0;\n          if (local_value >= 0 && local_value < 9) {\n            enabled_bitset[local_value / 64] |= (static_cast<uint64_t>(1) << (local_value % 64));\n            some_mutation_enabled = true;\n          }\n        }\n        if (pos == std::string::npos) {\n          break;\n        }\n        contents.erase(0, pos + 1);\n      }\n    }\n    initialized = true;\n    __dredd_some_mutation_enabled = some_mutation_enabled;\n  }\n  return (enabled_bitset[local_mutation_id / 64] & (static_cast<uint64_t>(1) << (local_mutation_id % 64))) != 0;\n}\n\nstatic int __dredd_replace_expr_int(int arg, int local_mutation_id) {\n  if (!__dredd_some_mutation_enabled) return arg;\n  if (__dredd_enabled_mutation(local_mutation_id + 0)) return !(arg);\n  if (__dredd_enabled_mutation(local_mutation_id + 1)) return ~(arg);\n  if (__dredd_enabled_mutation(local_mutation_id + 2)) return -(arg);\n  if (__dredd_enabled_mutation(local_mutation_id + 3)) return 0;\n  if (__dredd_enabled_mutation(local_mutation_id + 4)) return 1;\n  if (__dredd_enabled_mutation(local_mutation_id + 5)) return -1;\n  return arg;\n}\n\nint main() {\n  if (!__dredd_enabled_mutation(8)) { switch(__dredd_replace_expr_int(0, 0)) {\n  case -1:\n    if (!__dredd_enabled_mutation(6)) { break; }\n  default:\n    if (!__dredd_enabled_mutation(7)) { break; }\n  } }\n}\n" }

#guard negative_switch_case_cc.ok

/-- test/single_file/nodiscard.cc -/
def nodiscard_cc : Case :=
  let src : Text := t!"[[nodiscard]] static int foo() {\n  return 42;\n}\n"
  { name := "nodiscard.cc", lang := cpp, src := src, ast :=
    .decl ⟨.tu, none⟩ [
     .decl ⟨.func false none, (some ⟨0, 47⟩)⟩ [
      st src .compound .plain (some ⟨31, 47⟩) [
       st src .other .plain (some ⟨35, 44⟩) [
        ex src .other (some .int) .plain 42 (some ⟨42, 44⟩) (fun f => { f with intVal := some 42, boolVal := some true, cxx11Const := true }) []]]]]
    expected := "// DREDD PRELUDE START\n// If this has been inserted at an inappropriate place in a source file,\n// declare a placeholder function with the following signature to\n// mandate where the prelude should be placed:\n//\n// void __dredd_prelude_start();\n//\n#include <atomic>\n#include <cinttypes>\n#include <cstddef>\n#include <fstream>\n#include <functional>\n#include <sstream>\n#include <string>\n\n\n#ifdef _MSC_VER\n#define thread_local __declspec(thread)\n#elif __APPLE__\n#define thread_local __thread\n#endif\n\nstatic thread_local bool __dredd_some_mutation_enabled = true;\nstatic bool __dredd_enabled_mutation(int local_mutation_id) {\n  static thread_local bool initialized = false;\n  static thread_local uint64_t enabled_bitset[1];\n  if (!initialized) {\n    bool some_mutation_enabled = false;\n    const char* dredd_environment_variable = std::getenv(\"DREDD_ENABLED_MUTATION\");\n    if (dredd_environment_variable != nullptr) {\n      std::string contents(dredd_environment_variable);\n      while (true) {\n        size_t pos = contents.find(\",\");\n        std::string token = (pos == std::string::npos ? contents : contents.substr(0, pos));\n        if (!token.empty()) {\n          int value = std::stoi(token);\n          int local_value = value - 0;\n          if (local_value >= 0 && local_value < 6) {\n            enabled_bitset[local_value / 64] |= (static_cast<uint64_t>(1) << (local_value % 64));\n            some_mutation_enabled = true;\n          }\n        }\n        if (pos == std::string::npos) {\n          break;\n        }\n        contents.erase(0, pos + 1);\n      }\n    }\n    initialized = true;\n    __dredd_some_mutation_enabled = some_mutation_enabled;\n  }\n  return (enabled_bitset[local_mutation_id / 64] & (static_cast<uint64_t>(1) << (local_mutation_id % 64))) != 0;\n}\n\nstatic int __dredd_replace_expr_int_constant(int arg, int local_mutation_id) {\n  if (!__dredd_some_mutation_enabled) return arg;\n  if (__dredd_enabled_mutation(local_mutation_id + 0)) return ~(arg);\n  if (__dredd_enabled_mutation(local_mutation_id + 1)) return -(arg);\n  if (__dredd_enabled_mutation(local_mutation_id + 2)) return 0;\n  if (__dredd_enabled_mutation(local_mutation_id + 3)) return 1;\n  if (__dredd_enabled_mutation(local_mutation_id + 4)) return -1;\n  return arg;\n}\n\n[[nodiscard]] static int foo() {\n  if (!__dredd_enabled_mutation(5)) { return __dredd_replace_expr_int_constant(42, 0); }\n}\n"
    noopt := "// DREDD PRELUDE START\n// If this has been inserted at an inappropriate place in a source file,\n// declare a placeholder function with the following signature to\n// mandate where the prelude should be placed:\n//\n// void __dredd_prelude_start();\n//\n#include <atomic>\n#include <cinttypes>\n#include <cstddef>\n#include <fstream>\n#include <functional>\n#include <sstream>\n#include <string>\n\n\n#ifdef _MSC_VER\n#define thread_local __declspec(thread)\n#elif __APPLE__\n#define thread_local __thread\n#endif\n\nstatic thread_local bool __dredd_some_mutation_enabled = true;\nstatic bool __dredd_enabled_mutation(int local_mutation_id) {\n  static thread_local bool initialized = false;\n  static thread_local uint64_t enabled_bitset[1];\n  if (!initialized) {\n    bool some_mutation_enabled = false;\n    const char* dredd_environment_variable = std::getenv(\"DREDD_ENABLED_MUTATION\");\n    if (dredd_environment_variable != nullptr) {\n      std::string contents(dredd_environment_variable);\n      while (true) {\n        size_t pos = contents.find(\",\");\n        std::string token = (pos == std::string::npos ? contents : contents.substr(0, pos));\n        if (!token.empty()) {\n          int value = std::stoi(token);\n          int local_value = value - 0;\n          if (local_value >= 0 && local_value < 7) {\n            enabled_bitset[local_value / 64] |= (static_cast<uint64_t>(1) << (local_value % 64));\n            some_mutation_enabled = true;\n          }\n        }\n        if (pos == std::string::npos) {\n          break;\n        }\n        contents.erase(0, pos + 1);\n      }\n    }\n    initialized = true;\n    __dredd_some_mutation_enabled = some_mutation_enabled;\n  }\n  return (enabled_bitset[local_mutation_id / 64] & (static_cast<uint64_t>(1) << (local_mutation_id % 64))) != 0;\n}\n\nstatic int __dredd_replace_expr_int(int arg, int local_mutation_id) {\n  if (!__dredd_some_mutation_enabled) return arg;\n  if (__dredd_enabled_mutation(local_mutation_id + 0)) return !(arg);\n  if (__dredd_enabled_mutation(local_mutation_id + 1)) return ~(arg);\n  if (__dredd_enabled_mutation(local_mutation_id + 2)) return -(arg);\n  if (__dredd_enabled_mutation(local_mutation_id + 3)) return 0;\n  if (__dredd_enabled_mutation(local_mutation_id + 4)) return 1;\n  if (__dredd_enabled_mutation(local_mutation_id + 5)) return -1;\n  return arg;\n}\n\n[[nodiscard]] static int foo() {\n  if (!__dredd_enabled_mutation(6)) { return __dredd_replace_expr_int(42, 0); }\n}\n" }

#guard nodiscard_cc.ok

/-- test/single_file/nodiscard_macro.cc -/
def nodiscard_macro_cc : Case :=
  let src : Text := t!"#define NODISCARD [[nodiscard]]\n\nNODISCARD static int foo() {\n  return 42;\n}\n"
  { name := "nodiscard_macro.cc", lang := cpp, src := src, ast :=
    .decl ⟨.tu, none⟩ [
     .decl ⟨.func false none, (some ⟨33, 76⟩)⟩ [
      st src .compound .plain (some ⟨60, 76⟩) [
       st src .other .plain (some ⟨64, 73⟩) [
        ex src .other (some .int) .plain 71 (some ⟨71, 73⟩) (fun f => { f with intVal := some 42, boolVal := some true, cxx11Const := true }) []]]]]
    expected := "// DREDD PRELUDE START\n// If this has been inserted at an inappropriate place in a source file,\n// declare a placeholder function with the following signature to\n// mandate where the prelude should be placed:\n//\n// void __dredd_prelude_start();\n//\n#include <atomic>\n#include <cinttypes>\n#include <cstddef>\n#include <fstream>\n#include <functional>\n#include <sstream>\n#include <string>\n\n\n#ifdef _MSC_VER\n#define thread_local __declspec(thread)\n#elif __APPLE__\n#define thread_local __thread\n#endif\n\nstatic thread_local bool __dredd_some_mutation_enabled = true;\nstatic bool __dredd_enabled_mutation(int local_mutation_id) {\n  static thread_local bool initialized = false;\n  static thread_local uint64_t enabled_bitset[1];\n  if (!initialized) {\n    bool some_mutation_enabled = false;\n    const char* dredd_environment_variable = std::getenv(\"DREDD_ENABLED_MUTATION\");\n    if (dredd_environment_variable != nullptr) {\n      std::string contents(dredd_environment_variable);\n      while (true) {\n        size_t pos = contents.find(\",\");\n        std::string token = (pos == std::string::npos ? contents : contents.substr(0, pos));\n        if (!token.empty()) {\n          int value = std::stoi(token);\n          int local_value = value - 0;\n          if (local_value >= 0 && local_value < 6) {\n            enabled_bitset[local_value / 64] |= (static_cast<uint64_t>(1) << (local_value % 64));\n            some_mutation_enabled = true;\n          }\n        }\n        if (pos == std::string::npos) {\n          break;\n        }\n        contents.erase(0, pos + 1);\n      }\n    }\n    initialized = true;\n    __dredd_some_mutation_enabled = some_mutation_enabled;\n  }\n  return (enabled_bitset[local_mutation_id / 64] & (static_cast<uint64_t>(1) << (local_mutation_id % 64))) != 0;\n}\n\nstatic int __dredd_replace_expr_int_constant(int arg, int local_mutation_id) {\n  if (!__dredd_some_mutation_enabled) return arg;\n  if (__dredd_enabled_mutation(local_mutation_id + 0)) return ~(arg);\n  if (__dredd_enabled_mutation(local_mutation_id + 1)) return -(arg);\n  if (__dredd_enabled_mutation(local_mutation_id + 2)) return 0;\n  if (__dredd_enabled_mutation(local_mutation_id + 3)) return 1;\n  if (__dredd_enabled_mutation(local_mutation_id + 4)) return -1;\n  return arg;\n}\n\n#define NODISCARD [[nodiscard]]\n\nNODISCARD static int foo() {\n  if (!__dredd_enabled_mutation(5)) { return __dredd_replace_expr_int_constant(42, 0); }\n}\n"
    noopt := "// DREDD PRELUDE START\n// If this has been inserted at an inappropriate place in a source file,\n// declare a placeholder function with the following signature to\n// mandate where the prelude should be placed:\n//\n// void __dredd_prelude_start();\n//\n#include <atomic>\n#include <cinttypes>\n#include <cstddef>\n#include <fstream>\n#include <functional>\n#include <sstream>\n#include <string>\n\n\n#ifdef _MSC_VER\n#define thread_local __declspec(thread)\n#elif __APPLE__\n#define thread_local __thread\n#endif\n\nstatic thread_local bool __dredd_some_mutation_enabled = true;\nstatic bool __dredd_enabled_mutation(int local_mutation_id) {\n  static thread_local bool initialized = false;\n  static thread_local uint64_t enabled_bitset[1];\n  if (!initialized) {\n    bool some_mutation_enabled = false;\n    const char* dredd_environment_variable = std::getenv(\"DREDD_ENABLED_MUTATION\");\n    if (dredd_environment_variable != nullptr) {\n      std::string contents(dredd_environment_variable);\n      while (true) {\n        size_t pos = contents.find(\",\");\n        std::string token = (pos == std::string::npos ? contents : contents.substr(0, pos));\n        if (!token.empty()) {\n          int value = std::stoi(token);\n          int local_value = value - 0;\n          if (local_value >= 0 && local_value < 7) {\n            enabled_bitset[local_value / 64] |= (static_cast<uint64_t>(1) << (local_value % 64));\n            some_mutation_enabled = true;\n          }\n        }\n        if (pos == std::string::npos) {\n          break;\n        }\n        contents.erase(0, pos + 1);\n      }\n    }\n    initialized = true;\n    __dredd_some_mutation_enabled = some_mutation_enabled;\n  }\n  return (enabled_bitset[local_mutation_id / 64] & (static_cast<uint64_t>(1) << (local_mutation_id % 64))) != 0;\n}\n\nstatic int __dredd_replace_expr_int(int arg, int local_mutation_id) {\n  if (!__dredd_some_mutation_enabled) return arg;\n  if (__dredd_enabled_mutation(local_mutation_id + 0)) return !(arg);\n  if (__dredd_enabled_mutation(local_mutation_id + 1)) return ~(arg);\n  if (__dredd_enabled_mutation(local_mutation_id + 2)) return -(arg);\n  if (__dredd_enabled_mutation(local_mutation_id + 3)) return 0;\n  if (__dredd_enabled_mutation(local_mutation_id + 4)) return 1;\n  if (__dredd_enabled_mutation(local_mutation_id + 5)) return -1;\n  return arg;\n}\n\n#define NODISCARD [[nodiscard]]\n\nNODISCARD static int foo() {\n  if (!__dredd_enabled_mutation(6)) { return __dredd_replace_expr_int(42, 0); }\n}\n" }

#guard nodiscard_macro_cc.ok

/-- test/single_file/non_const_sized_array.cc -/
def non_const_sized_array_cc : Case :=
  let src : Text := t!"void foo() {\n  volatile int x = 5;\n  int A[x + x];\n}\n"
  { name := "non_const_sized_array.cc", lang := cpp, src := src, ast :=
    .decl ⟨.tu, none⟩ [
     .decl ⟨.func false none, (some ⟨0, 52⟩)⟩ [
      st src .compound .plain (some ⟨11, 52⟩) [
       st src .declStmt .plain (some ⟨15, 34⟩) [
        .decl ⟨.var ⟨28, false, [], [], false, false, false⟩, (some ⟨15, 33⟩)⟩ [
         ex src .other (some .int) .plain 32 (some ⟨32, 33⟩) (fun f => { f with intVal := some 5, boolVal := some true, cxx11Const := true }) []]],
       st src .declStmt .plain (some ⟨37, 50⟩) [
        .decl ⟨.var ⟨41, false, [], [], false, false, false⟩, (some ⟨37, 49⟩)⟩ [
         .other .varArrayType [
          ex src (.binary .add) (some .int) .plain 43 (some ⟨43, 48⟩) (fun f => { f with sideEffects := true, opOff := some 45 }) [
           ex src (.cast true false) (some .int) .lhs 43 (some ⟨43, 44⟩) (fun f => { f with sideEffects := true }) [
            ex src .other (some .int) .operand 43 (some ⟨43, 44⟩) (fun f => { f with lvalue := true, volatile := true }) []],
           ex src (.cast true false) (some .int) .rhs 47 (some ⟨47, 48⟩) (fun f => { f with sideEffects := true }) [
            ex src .other (some .int) .operand 47 (some ⟨47, 48⟩) (fun f => { f with lvalue := true, volatile := true }) []]]]]]]]]
    expected := "// DREDD PRELUDE START\n// If this has been inserted at an inappropriate place in a source file,\n// declare a placeholder function with the following signature to\n// mandate where the prelude should be placed:\n//\n// void __dredd_prelude_start();\n//\n#include <atomic>\n#include <cinttypes>\n#include <cstddef>\n#include <fstream>\n#include <functional>\n#include <sstream>\n#include <string>\n\n\n#ifdef _MSC_VER\n#define thread_local __declspec(thread)\n#elif __APPLE__\n#define thread_local __thread\n#endif\n\nstatic thread_local bool __dredd_some_mutation_enabled = true;\nstatic bool __dredd_enabled_mutation(int local_mutation_id) {\n  static thread_local bool initialized = false;\n  static thread_local uint64_t enabled_bitset[1];\n  if (!initialized) {\n    bool some_mutation_enabled = false;\n    const char* dredd_environment_variable = std::getenv(\"DREDD_ENABLED_MUTATION\");\n    if (dredd_environment_variable != nullptr) {\n      std::string contents(dredd_environment_variable);\n      while (true) {\n        size_t pos = contents.find(\",\");\n        std::string token = (pos == std::string::npos ? contents : contents.substr(0, pos));\n        if (!token.empty()) {\n          int value = std::stoi(token);\n          int local_value = value - 0;\n          if (local_value >= 0 && local_value < 5) {\n            enabled_bitset[local_value / 64] |= (static_cast<uint64_t>(1) << (local_value % 64));\n            some_mutation_enabled = true;\n          }\n        }\n        if (pos == std::string::npos) {\n          break;\n        }\n        contents.erase(0, pos + 1);\n      }\n    }\n    initialized = true;\n    __dredd_some_mutation_enabled = some_mutation_enabled;\n  }\n  return (enabled_bitset[local_mutation_id / 64] & (static_cast<uint64_t>(1) << (local_mutation_id % 64))) != 0;\n}\n\nstatic int __dredd_replace_expr_int_constant(int arg, int local_mutation_id) {\n  if (!__dredd_some_mutation_enabled) return arg;\n  if (__dredd_enabled_mutation(local_mutation_id + 0)) return ~(arg);\n  if (__dredd_enabled_mutation(local_mutation_id + 1)) return -(arg);\n  if (__dredd_enabled_mutation(local_mutation_id + 2)) return 0;\n  if (__dredd_enabled_mutation(local_mutation_id + 3)) return 1;\n  if (__dredd_enabled_mutation(local_mutation_id + 4)) return -1;\n  return arg;\n}\n\nvoid foo() {\n  volatile int x = __dredd_replace_expr_int_constant(5, 0);\n  int A[x + x];\n}\n"
    noopt := "// DREDD PRELUDE START\n// If this has been inserted at an inappropriate place in a source file,\n// declare a placeholder function with the following signature to\n// mandate where the prelude should be placed:\n//\n// void __dredd_prelude_start();\n//\n#include <atomic>\n#include <cinttypes>\n#include <cstddef>\n#include <fstream>\n#include <functional>\n#include <sstream>\n#include <string>\n\n\n#ifdef _MSC_VER\n#define thread_local __declspec(thread)\n#elif __APPLE__\n#define thread_local __thread\n#endif\n\nstatic thread_local bool __dredd_some_mutation_enabled = true;\nstatic bool __dredd_enabled_mutation(int local_mutation_id) {\n  static thread_local bool initialized = false;\n  static thread_local uint64_t enabled_bitset[1];\n  if (!initialized) {\n    bool some_mutation_enabled = false;\n    const char* dredd_environment_variable = std::getenv(\"DREDD_ENABLED_MUTATION\");\n    if (dredd_environment_variable != nullptr) {\n      std::string contents(dredd_environment_variable);\n      while (true) {\n        size_t pos = contents.find(\",\");\n        std::string token = (pos == std::string::npos ? contents : contents.substr(0, pos));\n        if (!token.empty()) {\n          int value = std::stoi(token);\n          int local_value = value - 0;\n          if (local_value >= 0 && local_value < 6) {\n            enabled_bitset[local_value / 64] |= (static_cast<uint64_t>(1) << (local_value % 64));\n            some_mutation_enabled = true;\n          }\n        }\n        if (pos == std::string::npos) {\n          break;\n        }\n        contents.erase(0, pos + 1);\n      }\n    }\n    initialized = true;\n    __dredd_some_mutation_enabled = some_mutation_enabled;\n  }\n  return (enabled_bitset[local_mutation_id / 64] & (static_cast<uint64_t>(1) << (local_mutation_id % 64))) != 0;\n}\n\nstatic int __dredd_replace_expr_int(int arg, int local_mutation_id) {\n  if (!__dredd_some_mutation_enabled) return arg;\n  if (__dredd_enabled_mutation(local_mutation_id + 0)) return !(arg);\n  if (__dredd_enabled_mutation(local_mutation_id + 1)) return ~(arg);\n  if (__dredd_enabled_mutation(local_mutation_id + 2)) return -(arg);\n  if (__dredd_enabled_mutation(local_mutation_id + 3)) return 0;\n  if (__dredd_enabled_mutation(local_mutation_id + 4)) return 1;\n  if (__dredd_enabled_mutation(local_mutation_id + 5)) return -1;\n  return arg;\n}\n\nvoid foo() {\n  volatile int x = __dredd_replace_expr_int(5, 0);\n  int A[x + x];\n}\n" }

#guard non_const_sized_array_cc.ok

/-- test/single_file/parens.cc -/
def parens_cc : Case :=
  let src : Text := t!"int foo(int x) {\n  return ((x));\n}\n"
  { name := "parens.cc", lang := cpp, src := src, ast :=
    .decl ⟨.tu, none⟩ [
     .decl ⟨.func false none, (some ⟨0, 34⟩)⟩ [
      .decl ⟨.parm, (some ⟨8, 13⟩)⟩ [],
      st src .compound .plain (some ⟨15, 34⟩) [
       st src .other .plain (some ⟨19, 31⟩) [
        ex src (.cast true false) (some .int) .plain 26 (some ⟨26, 31⟩) id [
         ex src .paren (some .int) .operand 26 (some ⟨26, 31⟩) (fun f => { f with lvalue := true }) [
          ex src .paren (some .int) .plain 27 (some ⟨27, 30⟩) (fun f => { f with lvalue := true }) [
           ex src .other (some .int) .plain 28 (some ⟨28, 29⟩) (fun f => { f with lvalue := true }) []]]]]]]]
    expected := "// DREDD PRELUDE START\n// If this has been inserted at an inappropriate place in a source file,\n// declare a placeholder function with the following signature to\n// mandate where the prelude should be placed:\n//\n// void __dredd_prelude_start();\n//\n#include <atomic>\n#include <cinttypes>\n#include <cstddef>\n#include <fstream>\n#include <functional>\n#include <sstream>\n#include <string>\n\n\n#ifdef _MSC_VER\n#define thread_local __declspec(thread)\n#elif __APPLE__\n#define thread_local __thread\n#endif\n\nstatic thread_local bool __dredd_some_mutation_enabled = true;\nstatic bool __dredd_enabled_mutation(int local_mutation_id) {\n  static thread_local bool initialized = false;\n  static thread_local uint64_t enabled_bitset[1];\n  if (!initialized) {\n    bool some_mutation_enabled = false;\n    const char* dredd_environment_variable = std::getenv(\"DREDD_ENABLED_MUTATION\");\n    if (dredd_environment_variable != nullptr) {\n      std::string contents(dredd_environment_variable);\n      while (true) {\n        size_t pos = contents.find(\",\");\n        std::string token = (pos == std::string::npos ? contents : contents.substr(0, pos));\n        if (!token.empty()) {\n          int value = std::stoi(token);\n          int local_value = value - 0;\n          if (local_value >= 0 && local_value < 7) {\n            enabled_bitset[local_value / 64] |= (static_cast<uint64_t>(1) << (local_value % 64));\n            some_mutation_enabled = true;\n          }\n        }\n        if (pos == std::string::npos) {\n          break;\n        }\n        contents.erase(0, pos + 1);\n      }\n    }\n    initialized = true;\n    __dredd_some_mutation_enabled = some_mutation_enabled;\n  }\n  return (enabled_bitset[local_mutation_id / 64] & (static_cast<uint64_t>(1) << (local_mutation_id % 64))) != 0;\n}\n\nstatic int __dredd_replace_expr_int(int arg, int local_mutation_id) {\n  if (!__dredd_some_mutation_enabled) return arg;\n  if (__dredd_enabled_mutation(local_mutation_id + 0)) return !(arg);\n  if (__dredd_enabled_mutation(local_mutation_id + 1)) return ~(arg);\n  if (__dredd_enabled_mutation(local_mutation_id + 2)) return -(arg);\n  if (__dredd_enabled_mutation(local_mutation_id + 3)) return 0;\n  if (__dredd_enabled_mutation(local_mutation_id + 4)) return 1;\n  if (__dredd_enabled_mutation(local_mutation_id + 5)) return -1;\n  return arg;\n}\n\nint foo(int x) {\n  if (!__dredd_enabled_mutation(6)) { return __dredd_replace_expr_int(((x)), 0); }\n}\n"
    noopt := "// DREDD PRELUDE START\n// If this has been inserted at an inappropriate place in a source file,\n// declare a placeholder function with the following signature to\n// mandate where the prelude should be placed:\n//\n// void __dredd_prelude_start();\n//\n#include <atomic>\n#include <cinttypes>\n#include <cstddef>\n#include <fstream>\n#include <functional>\n#include <sstream>\n#include <string>\n\n\n#ifdef _MSC_VER\n#define thread_local __declspec(thread)\n#elif __APPLE__\n#define thread_local __thread\n#endif\n\nstatic thread_local bool __dredd_some_mutation_enabled = true;\nstatic bool __dredd_enabled_mutation(int local_mutation_id) {\n  static thread_local bool initialized = false;\n  static thread_local uint64_t enabled_bitset[1];\n  if (!initialized) {\n    bool some_mutation_enabled = false;\n    const char* dredd_environment_variable = std::getenv(\"DREDD_ENABLED_MUTATION\");\n    if (dredd_environment_variable != nullptr) {\n      std::string contents(dredd_environment_variable);\n      while (true) {\n        size_t pos = contents.find(\",\");\n        std::string token = (pos == std::string::npos ? contents : contents.substr(0, pos));\n        if (!token.empty()) {\n          int value = std::stoi(token);\n          int local_value = value - 0;\n          if (local_value >= 0 && local_value < 9) {\n            enabled_bitset[local_value / 64] |= (static_cast<uint64_t>(1) << (local_value % 64));\n            some_mutation_enabled = true;\n          }\n        }\n        if (pos == std::string::npos) {\n          break;\n        }\n        contents.erase(0, pos + 1);\n      }\n    }\n    initialized = true;\n    __dredd_some_mutation_enabled = some_mutation_enabled;\n  }\n  return (enabled_bitset[local_mutation_id / 64] & (static_cast<uint64_t>(1) << (local_mutation_id % 64))) != 0;\n}\n\nstatic int __dredd_replace_expr_int_lvalue(int& arg, int local_mutation_id) {\n  if (!__dredd_some_mutation_enabled) return arg;\n  if (__dredd_enabled_mutation(local_mutation_id + 0)) return ++(arg);\n  if (__dredd_enabled_mutation(local_mutation_id + 1)) return --(arg);\n  return arg;\n}\n\nstatic int __dredd_replace_expr_int(int arg, int local_mutation_id) {\n  if (!__dredd_some_mutation_enabled) return arg;\n  if (__dredd_enabled_mutation(local_mutation_id + 0)) return !(arg);\n  if (__dredd_enabled_mutation(local_mutation_id + 1)) return ~(arg);\n  if (__dredd_enabled_mutation(local_mutation_id + 2)) return -(arg);\n  if (__dredd_enabled_mutation(local_mutation_id + 3)) return 0;\n  if (__dredd_enabled_mutation(local_mutation_id + 4)) return 1;\n  if (__dredd_enabled_mutation(local_mutation_id + 5)) return -1;\n  return arg;\n}\n\nint foo(int x) {\n  if (!__dredd_enabled_mutation(8)) { return __dredd_replace_expr_int(__dredd_replace_expr_int_lvalue(((x)), 0), 2); }\n}\n" }

#guard parens_cc.ok

/-- test/single_file/post_inc_volatile.c -/
def post_inc_volatile_c : Case :=
  let src : Text := t!"int main() {\n  volatile int x = 9;\n  volatile int y = 43;\n  int z;\n  z = x++ + y++;\n  return z;\n}\n"
  { name := "post_inc_volatile.c", lang := c, src := src, ast :=
    .decl ⟨.tu, none⟩ [
     .decl ⟨.func false none, (some ⟨0, 97⟩)⟩ [
      st src .compound .plain (some ⟨11, 97⟩) [
       st src .declStmt .plain (some ⟨15, 34⟩) [
        .decl ⟨.var ⟨28, false, [], [], false, false, false⟩, (some ⟨15, 33⟩)⟩ [
         ex src .other (some .int) .plain 32 (some ⟨32, 33⟩) (fun f => { f with intVal := some 9, boolVal := some true }) []]],
       st src .declStmt .plain (some ⟨37, 57⟩) [
        .decl ⟨.var ⟨50, false, [], [], false, false, false⟩, (some ⟨37, 56⟩)⟩ [
         ex src .other (some .int) .plain 54 (some ⟨54, 56⟩) (fun f => { f with intVal := some 43, boolVal := some true }) []]],
       st src .declStmt .plain (some ⟨60, 66⟩) [
        .decl ⟨.var ⟨64, false, [], [], false, false, false⟩, (some ⟨60, 65⟩)⟩ []],
       ex src (.binary .assign) (some .int) .plain 69 (some ⟨69, 82⟩) (fun f => { f with sideEffects := true, opOff := some 71 }) [
        ex src .other (some .int) .lhs 69 (some ⟨69, 70⟩) (fun f => { f with lvalue := true }) [],
        ex src (.binary .add) (some .int) .rhs 73 (some ⟨73, 82⟩) (fun f => { f with sideEffects := true, opOff := some 77 }) [
         ex src (.unary .postInc) (some .int) .lhs 73 (some ⟨73, 76⟩) (fun f => { f with sideEffects := true, opOff := some 74 }) [
          ex src .other (some .int) .operand 73 (some ⟨73, 74⟩) (fun f => { f with lvalue := true, volatile := true }) []],
         ex src (.unary .postInc) (some .int) .rhs 79 (some ⟨79, 82⟩) (fun f => { f with sideEffects := true, opOff := some 80 }) [
          ex src .other (some .int) .operand 79 (some ⟨79, 80⟩) (fun f => { f with lvalue := true, volatile := true }) []]]],
       st src .other .plain (some ⟨86, 94⟩) [
        ex src (.cast true false) (some .int) .plain 93 (some ⟨93, 94⟩) id [
         ex src .other (some .int) .operand 93 (some ⟨93, 94⟩) (fun f => { f with lvalue := true }) []]]]]]
    expected := "// DREDD PRELUDE START\n// If this has been inserted at an inappropriate place in a source file,\n// declare a placeholder function with the following signature to\n// mandate where the prelude should be placed:\n//\n// void __dredd_prelude_start();\n//\n#include <inttypes.h>\n#include <stdatomic.h>\n#include <stdbool.h>\n#include <stdio.h>\n#include <stdlib.h>\n#include <string.h>\n\n#ifdef _MSC_VER\n#define thread_local __declspec(thread)\n#elif __APPLE__\n#define thread_local __thread\n#else\n#include <threads.h>\n#endif\n\nstatic thread_local int __dredd_some_mutation_enabled = 1;\nstatic bool __dredd_enabled_mutation(int local_mutation_id) {\n  static thread_local int initialized = 0;\n  static thread_local uint64_t enabled_bitset[1];\n  if (!initialized) {\n    int some_mutation_enabled = 0;\n    const char* dredd_environment_variable = getenv(\"DREDD_ENABLED_MUTATION\");\n    if (dredd_environment_variable) {\n      char* temp = malloc(strlen(dredd_environment_variable) + 1);\n      strcpy(temp, dredd_environment_variable);\n      char* token;\n      token = strtok(temp, \",\");\n      while(token) {\n        int value = atoi(token);\n        int local_value = value - 0;\n        if (local_value >= 0 && local_value < 64) {\n          enabled_bitset[local_value / 64] |= ((uint64_t) 1 << (local_value % 64));\n          some_mutation_enabled = 1;\n        }\n        token = strtok(NULL, \",\");\n      }\n      free(temp);\n    }\n    initialized = 1;\n    __dredd_some_mutation_enabled = some_mutation_enabled;\n  }\n  return enabled_bitset[local_mutation_id / 64] & ((uint64_t) 1 << (local_mutation_id % 64));\n}\n\nstatic int __dredd_replace_unary_operator_PostInc_volatile_int(volatile int* arg, int local_mutation_id) {\n  if (!__dredd_some_mutation_enabled) return (*arg)++;\n  if (__dredd_enabled_mutation(local_mutation_id + 0)) return (*arg)--;\n  if (__dredd_enabled_mutation(local_mutation_id + 1)) return ~(*arg);\n  if (__dredd_enabled_mutation(local_mutation_id + 2)) return -(*arg);\n  if (__dredd_enabled_mutation(local_mutation_id + 3)) return !(*arg);\n  if (__dredd_enabled_mutation(local_mutation_id + 4)) return (*arg);\n  return (*arg)++;\n}\n\nstatic int __dredd_replace_expr_int_lvalue(int* arg, int local_mutation_id) {\n  if (!__dredd_some_mutation_enabled) return (*arg);\n  if (__dredd_enabled_mutation(local_mutation_id + 0)) return ++((*arg));\n  if (__dredd_enabled_mutation(local_mutation_id + 1)) return --((*arg));\n  return (*arg);\n}\n\nstatic int __dredd_replace_expr_int_constant(int arg, int local_mutation_id) {\n  if (!__dredd_some_mutation_enabled) return arg;\n  if (__dredd_enabled_mutation(local_mutation_id + 0)) return ~(arg);\n  if (__dredd_enabled_mutation(local_mutation_id + 1)) return -(arg);\n  if (__dredd_enabled_mutation(local_mutation_id + 2)) return 0;\n  if (__dredd_enabled_mutation(local_mutation_id + 3)) return 1;\n  if (__dredd_enabled_mutation(local_mutation_id + 4)) return -1;\n  return arg;\n}\n\nstatic int __dredd_replace_expr_int(int arg, int local_mutation_id) {\n  if (!__dredd_some_mutation_enabled) return arg;\n  if (__dredd_enabled_mutation(local_mutation_id + 0)) return !(arg);\n  if (__dredd_enabled_mutation(local_mutation_id + 1)) return ~(arg);\n  if (__dredd_enabled_mutation(local_mutation_id + 2)) return -(arg);\n  if (__dredd_enabled_mutation(local_mutation_id + 3)) return 0;\n  if (__dredd_enabled_mutation(local_mutation_id + 4)) return 1;\n  if (__dredd_enabled_mutation(local_mutation_id + 5)) return -1;\n  return arg;\n}\n\nstatic int __dredd_replace_binary_operator_Assign_arg1_int_arg2_int(int* arg1, int arg2, int local_mutation_id) {\n  if (!__dredd_some_mutation_enabled) return (*arg1) = arg2;\n  if (__dredd_enabled_mutation(local_mutation_id + 0)) return (*arg1) += arg2;\n  if (__dredd_enabled_mutation(local_mutation_id + 1)) return (*arg1) &= arg2;\n  if (__dredd_enabled_mutation(local_mutation_id + 2)) return (*arg1) /= arg2;\n  if (__dredd_enabled_mutation(local_mutation_id + 3)) return (*arg1) *= arg2;\n  if (__dredd_enabled_mutation(local_mutation_id + 4)) return (*arg1) |= arg2;\n  if (__dredd_enabled_mutation(local_mutation_id + 5)) return (*arg1) %= arg2;\n  if (__dredd_enabled_mutation(local_mutation_id + 6)) return (*arg1) <<= arg2;\n  if (__dredd_enabled_mutation(local_mutation_id + 7)) return (*arg1) >>= arg2;\n  if (__dredd_enabled_mutation(local_mutation_id + 8)) return (*arg1) -= arg2;\n  if (__dredd_enabled_mutation(local_mutation_id + 9)) return (*arg1) ^= arg2;\n  return (*arg1) = arg2;\n}\n\nstatic int __dredd_replace_binary_operator_Add_arg1_int_arg2_int(int arg1, int arg2, int local_mutation_id) {\n  if (!__dredd_some_mutation_enabled) return arg1 + arg2;\n  if (__dredd_enabled_mutation(local_mutation_id + 0)) return arg1 / arg2;\n  if (__dredd_enabled_mutation(local_mutation_id + 1)) return arg1 * arg2;\n  if (__dredd_enabled_mutation(local_mutation_id + 2)) return arg1 % arg2;\n  if (__dredd_enabled_mutation(local_mutation_id + 3)) return arg1 - arg2;\n  if (__dredd_enabled_mutation(local_mutation_id + 4)) return arg1;\n  if (__dredd_enabled_mutation(local_mutation_id + 5)) return arg2;\n  return arg1 + arg2;\n}\n\nint main() {\n  volatile int x = __dredd_replace_expr_int_constant(9, 0);\n  volatile int y = __dredd_replace_expr_int_constant(43, 5);\n  int z;\n  if (!__dredd_enabled_mutation(54)) { __dredd_replace_binary_operator_Assign_arg1_int_arg2_int(&(z) , __dredd_replace_expr_int(__dredd_replace_binary_operator_Add_arg1_int_arg2_int(__dredd_replace_expr_int(__dredd_replace_unary_operator_PostInc_volatile_int(&(x), 10), 15) , __dredd_replace_expr_int(__dredd_replace_unary_operator_PostInc_volatile_int(&(y), 21), 26), 32), 38), 44); }\n  if (!__dredd_enabled_mutation(63)) { return __dredd_replace_expr_int(__dredd_replace_expr_int_lvalue(&(z), 55), 57); }\n}\n"
    noopt := "// DREDD PRELUDE START\n// If this has been inserted at an inappropriate place in a source file,\n// declare a placeholder function with the following signature to\n// mandate where the prelude should be placed:\n//\n// void __dredd_prelude_start();\n//\n#include <inttypes.h>\n#include <stdatomic.h>\n#include <stdbool.h>\n#include <stdio.h>\n#include <stdlib.h>\n#include <string.h>\n\n#ifdef _MSC_VER\n#define thread_local __declspec(thread)\n#elif __APPLE__\n#define thread_local __thread\n#else\n#include <threads.h>\n#endif\n\nstatic thread_local int __dredd_some_mutation_enabled = 1;\nstatic bool __dredd_enabled_mutation(int local_mutation_id) {\n  static thread_local int initialized = 0;\n  static thread_local uint64_t enabled_bitset[2];\n  if (!initialized) {\n    int some_mutation_enabled = 0;\n    const char* dredd_environment_variable = getenv(\"DREDD_ENABLED_MUTATION\");\n    if (dredd_environment_variable) {\n      char* temp = malloc(strlen(dredd_environment_variable) + 1);\n      strcpy(temp, dredd_environment_variable);\n      char* token;\n      token = strtok(temp, \",\");\n      while(token) {\n        int value = atoi(token);\n        int local_value = value - 0;\n        if (local_value >= 0 && local_value < 72) {\n          enabled_bitset[local_value / 64] |= ((uint64_t) 1 << (local_value % 64));\n          some_mutation_enabled = 1;\n        }\n        token = strtok(NULL, \",\");\n      }\n      free(temp);\n    }\n    initialized = 1;\n    __dredd_some_mutation_enabled = some_mutation_enabled;\n  }\n  return enabled_bitset[local_mutation_id / 64] & ((uint64_t) 1 << (local_mutation_id % 64));\n}\n\nstatic int __dredd_replace_unary_operator_PostInc_volatile_int(volatile int* arg, int local_mutation_id) {\n  if (!__dredd_some_mutation_enabled) return (*arg)++;\n  if (__dredd_enabled_mutation(local_mutation_id + 0)) return (*arg)--;\n  if (__dredd_enabled_mutation(local_mutation_id + 1)) return ~(*arg);\n  if (__dredd_enabled_mutation(local_mutation_id + 2)) return -(*arg);\n  if (__dredd_enabled_mutation(local_mutation_id + 3)) return !(*arg);\n  if (__dredd_enabled_mutation(local_mutation_id + 4)) return (*arg);\n  return (*arg)++;\n}\n\nstatic int __dredd_replace_expr_int_lvalue(int* arg, int local_mutation_id) {\n  if (!__dredd_some_mutation_enabled) return (*arg);\n  if (__dredd_enabled_mutation(local_mutation_id + 0)) return ++((*arg));\n  if (__dredd_enabled_mutation(local_mutation_id + 1)) return --((*arg));\n  return (*arg);\n}\n\nstatic int __dredd_replace_expr_int(int arg, int local_mutation_id) {\n  if (!__dredd_some_mutation_enabled) return arg;\n  if (__dredd_enabled_mutation(local_mutation_id + 0)) return !(arg);\n  if (__dredd_enabled_mutation(local_mutation_id + 1)) return ~(arg);\n  if (__dredd_enabled_mutation(local_mutation_id + 2)) return -(arg);\n  if (__dredd_enabled_mutation(local_mutation_id + 3)) return 0;\n  if (__dredd_enabled_mutation(local_mutation_id + 4)) return 1;\n  if (__dredd_enabled_mutation(local_mutation_id + 5)) return -1;\n  return arg;\n}\n\nstatic int __dredd_replace_binary_operator_Assign_arg1_int_arg2_int(int* arg1, int arg2, int local_mutation_id) {\n  if (!__dredd_some_mutation_enabled) return (*arg1) = arg2;\n  if (__dredd_enabled_mutation(local_mutation_id + 0)) return (*arg1) += arg2;\n  if (__dredd_enabled_mutation(local_mutation_id + 1)) return (*arg1) &= arg2;\n  if (__dredd_enabled_mutation(local_mutation_id + 2)) return (*arg1) /= arg2;\n  if (__dredd_enabled_mutation(local_mutation_id + 3)) return (*arg1) *= arg2;\n  if (__dredd_enabled_mutation(local_mutation_id + 4)) return (*arg1) |= arg2;\n  if (__dredd_enabled_mutation(local_mutation_id + 5)) return (*arg1) %= arg2;\n  if (__dredd_enabled_mutation(local_mutation_id + 6)) return (*arg1) <<= arg2;\n  if (__dredd_enabled_mutation(local_mutation_id + 7)) return (*arg1) >>= arg2;\n  if (__dredd_enabled_mutation(local_mutation_id + 8)) return (*arg1) -= arg2;\n  if (__dredd_enabled_mutation(local_mutation_id + 9)) return (*arg1) ^= arg2;\n  return (*arg1) = arg2;\n}\n\nstatic int __dredd_replace_binary_operator_Add_arg1_int_arg2_int(int arg1, int arg2, int local_mutation_id) {\n  if (!__dredd_some_mutation_enabled) return arg1 + arg2;\n  if (__dredd_enabled_mutation(local_mutation_id + 0)) return arg1 / arg2;\n  if (__dredd_enabled_mutation(local_mutation_id + 1)) return arg1 * arg2;\n  if (__dredd_enabled_mutation(local_mutation_id + 2)) return arg1 % arg2;\n  if (__dredd_enabled_mutation(local_mutation_id + 3)) return arg1 - arg2;\n  if (__dredd_enabled_mutation(local_mutation_id + 4)) return arg1;\n  if (__dredd_enabled_mutation(local_mutation_id + 5)) return arg2;\n  return arg1 + arg2;\n}\n\nint main() {\n  volatile int x = __dredd_replace_expr_int(9, 0);\n  volatile int y = __dredd_replace_expr_int(43, 6);\n  int z;\n  if (!__dredd_enabled_mutation(62)) { __dredd_replace_expr_int(__dredd_replace_binary_operator_Assign_arg1_int_arg2_int(&(z) , __dredd_replace_expr_int(__dredd_replace_binary_operator_Add_arg1_int_arg2_int(__dredd_replace_expr_int(__dredd_replace_unary_operator_PostInc_volatile_int(&(x), 12), 17) , __dredd_replace_expr_int(__dredd_replace_unary_operator_PostInc_volatile_int(&(y), 23), 28), 34), 40), 46), 56); }\n  if (!__dredd_enabled_mutation(71)) { return __dredd_replace_expr_int(__dredd_replace_expr_int_lvalue(&(z), 63), 65); }\n}\n" }

#guard post_inc_volatile_c.ok

/-- test/single_file/space_needed_after_macro.c -/
def space_needed_after_macro_c : Case :=
  let src : Text := t!"#define BEGIN x = \n\nint main() {\n  int x, y;\n  BEGIN(y);\n}\n"
  { name := "space_needed_after_macro.c", lang := c, src := src, ast :=
    .decl ⟨.tu, none⟩ [
     .decl ⟨.func false none, (some ⟨20, 58⟩)⟩ [
      st src .compound .plain (some ⟨31, 58⟩) [
       st src .declStmt .plain (some ⟨35, 44⟩) [
        .decl ⟨.var ⟨39, false, [], [], false, false, false⟩, (some ⟨35, 40⟩)⟩ [],
        .decl ⟨.var ⟨42, false, [], [], false, false, false⟩, (some ⟨35, 43⟩)⟩ []],
       ex src (.binary .assign) (some .int) .plain 47 (some ⟨47, 55⟩) (fun f => { f with sideEffects := true }) [
        ex src .other (some .int) .lhs 47 none (fun f => { f with lvalue := true }) [],
        ex src (.cast true false) (some .int) .rhs 52 (some ⟨52, 55⟩) id [
         ex src .paren (some .int) .operand 52 (some ⟨52, 55⟩) (fun f => { f with lvalue := true }) [
          ex src .other (some .int) .plain 53 (some ⟨53, 54⟩) (fun f => { f with lvalue := true }) []]]]]]]
    expected := "// DREDD PRELUDE START\n// If this has been inserted at an inappropriate place in a source file,\n// declare a placeholder function with the following signature to\n// mandate where the prelude should be placed:\n//\n// void __dredd_prelude_start();\n//\n#include <inttypes.h>\n#include <stdatomic.h>\n#include <stdbool.h>\n#include <stdio.h>\n#include <stdlib.h>\n#include <string.h>\n\n#ifdef _MSC_VER\n#define thread_local __declspec(thread)\n#elif __APPLE__\n#define thread_local __thread\n#else\n#include <threads.h>\n#endif\n\nstatic thread_local int __dredd_some_mutation_enabled = 1;\nstatic bool __dredd_enabled_mutation(int local_mutation_id) {\n  static thread_local int initialized = 0;\n  static thread_local uint64_t enabled_bitset[1];\n  if (!initialized) {\n    int some_mutation_enabled = 0;\n    const char* dredd_environment_variable = getenv(\"DREDD_ENABLED_MUTATION\");\n    if (dredd_environment_variable) {\n      char* temp = malloc(strlen(dredd_environment_variable) + 1);\n      strcpy(temp, dredd_environment_variable);\n      char* token;\n      token = strtok(temp, \",\");\n      while(token) {\n        int value = atoi(token);\n        int local_value = value - 0;\n        if (local_value >= 0 && local_value < 7) {\n          enabled_bitset[local_value / 64] |= ((uint64_t) 1 << (local_value % 64));\n          some_mutation_enabled = 1;\n        }\n        token = strtok(NULL, \",\");\n      }\n      free(temp);\n    }\n    initialized = 1;\n    __dredd_some_mutation_enabled = some_mutation_enabled;\n  }\n  return enabled_bitset[local_mutation_id / 64] & ((uint64_t) 1 << (local_mutation_id % 64));\n}\n\nstatic int __dredd_replace_expr_int(int arg, int local_mutation_id) {\n  if (!__dredd_some_mutation_enabled) return arg;\n  if (__dredd_enabled_mutation(local_mutation_id + 0)) return !(arg);\n  if (__dredd_enabled_mutation(local_mutation_id + 1)) return ~(arg);\n  if (__dredd_enabled_mutation(local_mutation_id + 2)) return -(arg);\n  if (__dredd_enabled_mutation(local_mutation_id + 3)) return 0;\n  if (__dredd_enabled_mutation(local_mutation_id + 4)) return 1;\n  if (__dredd_enabled_mutation(local_mutation_id + 5)) return -1;\n  return arg;\n}\n\n#define BEGIN x = \n\nint main() {\n  int x, y;\n  if (!__dredd_enabled_mutation(6)) { BEGIN __dredd_replace_expr_int((y), 0); }\n}\n"
    noopt := "// DREDD PRELUDE START\n// If this has been inserted at an inappropriate place in a source file,\n// declare a placeholder function with the following signature to\n// mandate where the prelude should be placed:\n//\n// void __dredd_prelude_start();\n//\n#include <inttypes.h>\n#include <stdatomic.h>\n#include <stdbool.h>\n#include <stdio.h>\n#include <stdlib.h>\n#include <string.h>\n\n#ifdef _MSC_VER\n#define thread_local __declspec(thread)\n#elif __APPLE__\n#define thread_local __thread\n#else\n#include <threads.h>\n#endif\n\nstatic thread_local int __dredd_some_mutation_enabled = 1;\nstatic bool __dredd_enabled_mutation(int local_mutation_id) {\n  static thread_local int initialized = 0;\n  static thread_local uint64_t enabled_bitset[1];\n  if (!initialized) {\n    int some_mutation_enabled = 0;\n    const char* dredd_environment_variable = getenv(\"DREDD_ENABLED_MUTATION\");\n    if (dredd_environment_variable) {\n      char* temp = malloc(strlen(dredd_environment_variable) + 1);\n      strcpy(temp, dredd_environment_variable);\n      char* token;\n      token = strtok(temp, \",\");\n      while(token) {\n        int value = atoi(token);\n        int local_value = value - 0;\n        if (local_value >= 0 && local_value < 15) {\n          enabled_bitset[local_value / 64] |= ((uint64_t) 1 << (local_value % 64));\n          some_mutation_enabled = 1;\n        }\n        token = strtok(NULL, \",\");\n      }\n      free(temp);\n    }\n    initialized = 1;\n    __dredd_some_mutation_enabled = some_mutation_enabled;\n  }\n  return enabled_bitset[local_mutation_id / 64] & ((uint64_t) 1 << (local_mutation_id % 64));\n}\n\nstatic int __dredd_replace_expr_int_lvalue(int* arg, int local_mutation_id) {\n  if (!__dredd_some_mutation_enabled) return (*arg);\n  if (__dredd_enabled_mutation(local_mutation_id + 0)) return ++((*arg));\n  if (__dredd_enabled_mutation(local_mutation_id + 1)) return --((*arg));\n  return (*arg);\n}\n\nstatic int __dredd_replace_expr_int(int arg, int local_mutation_id) {\n  if (!__dredd_some_mutation_enabled) return arg;\n  if (__dredd_enabled_mutation(local_mutation_id + 0)) return !(arg);\n  if (__dredd_enabled_mutation(local_mutation_id + 1)) return ~(arg);\n  if (__dredd_enabled_mutation(local_mutation_id + 2)) return -(arg);\n  if (__dredd_enabled_mutation(local_mutation_id + 3)) return 0;\n  if (__dredd_enabled_mutation(local_mutation_id + 4)) return 1;\n  if (__dredd_enabled_mutation(local_mutation_id + 5)) return -1;\n  return arg;\n}\n\n#define BEGIN x = \n\nint main() {\n  int x, y;\n  if (!__dredd_enabled_mutation(14)) { __dredd_replace_expr_int(BEGIN __dredd_replace_expr_int( __dredd_replace_expr_int_lvalue(&((y)), 0), 2), 8); }\n}\n" }

#guard space_needed_after_macro_c.ok

/-- test/single_file/space_needed_after_macro2.c -/
def space_needed_after_macro2_c : Case :=
  let src : Text := t!"#define BEGIN_ x = \n\nint main() {\n  int x, y;\n  BEGIN_(y);\n}\n"
  { name := "space_needed_after_macro2.c", lang := c, src := src, ast :=
    .decl ⟨.tu, none⟩ [
     .decl ⟨.func false none, (some ⟨21, 60⟩)⟩ [
      st src .compound .plain (some ⟨32, 60⟩) [
       st src .declStmt .plain (some ⟨36, 45⟩) [
        .decl ⟨.var ⟨40, false, [], [], false, false, false⟩, (some ⟨36, 41⟩)⟩ [],
        .decl ⟨.var ⟨43, false, [], [], false, false, false⟩, (some ⟨36, 44⟩)⟩ []],
       ex src (.binary .assign) (some .int) .plain 48 (some ⟨48, 57⟩) (fun f => { f with sideEffects := true }) [
        ex src .other (some .int) .lhs 48 none (fun f => { f with lvalue := true }) [],
        ex src (.cast true false) (some .int) .rhs 54 (some ⟨54, 57⟩) id [
         ex src .paren (some .int) .operand 54 (some ⟨54, 57⟩) (fun f => { f with lvalue := true }) [
          ex src .other (some .int) .plain 55 (some ⟨55, 56⟩) (fun f => { f with lvalue := true }) []]]]]]]
    expected := "// DREDD PRELUDE START\n// If this has been inserted at an inappropriate place in a source file,\n// declare a placeholder function with the following signature to\n// mandate where the prelude should be placed:\n//\n// void __dredd_prelude_start();\n//\n#include <inttypes.h>\n#include <stdatomic.h>\n#include <stdbool.h>\n#include <stdio.h>\n#include <stdlib.h>\n#include <string.h>\n\n#ifdef _MSC_VER\n#define thread_local __declspec(thread)\n#elif __APPLE__\n#define thread_local __thread\n#else\n#include <threads.h>\n#endif\n\nstatic thread_local int __dredd_some_mutation_enabled = 1;\nstatic bool __dredd_enabled_mutation(int local_mutation_id) {\n  static thread_local int initialized = 0;\n  static thread_local uint64_t enabled_bitset[1];\n  if (!initialized) {\n    int some_mutation_enabled = 0;\n    const char* dredd_environment_variable = getenv(\"DREDD_ENABLED_MUTATION\");\n    if (dredd_environment_variable) {\n      char* temp = malloc(strlen(dredd_environment_variable) + 1);\n      strcpy(temp, dredd_environment_variable);\n      char* token;\n      token = strtok(temp, \",\");\n      while(token) {\n        int value = atoi(token);\n        int local_value = value - 0;\n        if (local_value >= 0 && local_value < 7) {\n          enabled_bitset[local_value / 64] |= ((uint64_t) 1 << (local_value % 64));\n          some_mutation_enabled = 1;\n        }\n        token = strtok(NULL, \",\");\n      }\n      free(temp);\n    }\n    initialized = 1;\n    __dredd_some_mutation_enabled = some_mutation_enabled;\n  }\n  return enabled_bitset[local_mutation_id / 64] & ((uint64_t) 1 << (local_mutation_id % 64));\n}\n\nstatic int __dredd_replace_expr_int(int arg, int local_mutation_id) {\n  if (!__dredd_some_mutation_enabled) return arg;\n  if (__dredd_enabled_mutation(local_mutation_id + 0)) return !(arg);\n  if (__dredd_enabled_mutation(local_mutation_id + 1)) return ~(arg);\n  if (__dredd_enabled_mutation(local_mutation_id + 2)) return -(arg);\n  if (__dredd_enabled_mutation(local_mutation_id + 3)) return 0;\n  if (__dredd_enabled_mutation(local_mutation_id + 4)) return 1;\n  if (__dredd_enabled_mutation(local_mutation_id + 5)) return -1;\n  return arg;\n}\n\n#define BEGIN_ x = \n\nint main() {\n  int x, y;\n  if (!__dredd_enabled_mutation(6)) { BEGIN_ __dredd_replace_expr_int((y), 0); }\n}\n"
    noopt := "// DREDD PRELUDE START\n// If this has been inserted at an inappropriate place in a source file,\n// declare a placeholder function with the following signature to\n// mandate where the prelude should be placed:\n//\n// void __dredd_prelude_start();\n//\n#include <inttypes.h>\n#include <stdatomic.h>\n#include <stdbool.h>\n#include <stdio.h>\n#include <stdlib.h>\n#include <string.h>\n\n#ifdef _MSC_VER\n#define thread_local __declspec(thread)\n#elif __APPLE__\n#define thread_local __thread\n#else\n#include <threads.h>\n#endif\n\nstatic thread_local int __dredd_some_mutation_enabled = 1;\nstatic bool __dredd_enabled_mutation(int local_mutation_id) {\n  static thread_local int initialized = 0;\n  static thread_local uint64_t enabled_bitset[1];\n  if (!initialized) {\n    int some_mutation_enabled = 0;\n    const char* dredd_environment_variable = getenv(\"DREDD_ENABLED_MUTATION\");\n    if (dredd_environment_variable) {\n      char* temp = malloc(strlen(dredd_environment_variable) + 1);\n      strcpy(temp, dredd_environment_variable);\n      char* token;\n      token = strtok(temp, \",\");\n      while(token) {\n        int value = atoi(token);\n        int local_value = value - 0;\n        if (local_value >= 0 && local_value < 15) {\n          enabled_bitset[local_value / 64] |= ((uint64_t) 1 << (local_value % 64));\n          some_mutation_enabled = 1;\n        }\n        token = strtok(NULL, \",\");\n      }\n      free(temp);\n    }\n    initialized = 1;\n    __dredd_some_mutation_enabled = some_mutation_enabled;\n  }\n  return enabled_bitset[local_mutation_id / 64] & ((uint64_t) 1 << (local_mutation_id % 64));\n}\n\nstatic int __dredd_replace_expr_int_lvalue(int* arg, int local_mutation_id) {\n  if (!__dredd_some_mutation_enabled) return (*arg);\n  if (__dredd_enabled_mutation(local_mutation_id + 0)) return ++((*arg));\n  if (__dredd_enabled_mutation(local_mutation_id + 1)) return --((*arg));\n  return (*arg);\n}\n\nstatic int __dredd_replace_expr_int(int arg, int local_mutation_id) {\n  if (!__dredd_some_mutation_enabled) return arg;\n  if (__dredd_enabled_mutation(local_mutation_id + 0)) return !(arg);\n  if (__dredd_enabled_mutation(local_mutation_id + 1)) return ~(arg);\n  if (__dredd_enabled_mutation(local_mutation_id + 2)) return -(arg);\n  if (__dredd_enabled_mutation(local_mutation_id + 3)) return 0;\n  if (__dredd_enabled_mutation(local_mutation_id + 4)) return 1;\n  if (__dredd_enabled_mutation(local_mutation_id + 5)) return -1;\n  return arg;\n}\n\n#define BEGIN_ x = \n\nint main() {\n  int x, y;\n  if (!__dredd_enabled_mutation(14)) { __dredd_replace_expr_int(BEGIN_ __dredd_replace_expr_int( __dredd_replace_expr_int_lvalue(&((y)), 0), 2), 8); }\n}\n" }

#guard space_needed_after_macro2_c.ok

/-- test/single_file/static_assert_rewrite.cc -/
def static_assert_rewrite_cc : Case :=
  let src : Text := t!"int foo() {\n  const int a = 42;\n  static_assert(a);\n  return a;\n}\n"
  { name := "static_assert_rewrite.cc", lang := cpp, src := src, ast :=
    .decl ⟨.tu, none⟩ [
     .decl ⟨.func false none, (some ⟨0, 65⟩)⟩ [
      st src .compound .plain (some ⟨10, 65⟩) [
       st src .declStmt .plain (some ⟨14, 31⟩) [
        .decl ⟨.var ⟨24, false, [], [], false, false, false⟩, (some ⟨14, 30⟩)⟩ [
         ex src .other (some .int) .plain 28 (some ⟨28, 30⟩) (fun f => { f with intVal := some 42, boolVal := some true, cxx11Const := true }) []]],
       st src .declStmt .plain (some ⟨34, 51⟩) [
        .decl ⟨.staticAssert ⟨1, (some ⟨48, 49⟩), some ⟨1, false, 1⟩⟩, (some ⟨34, 50⟩)⟩ []],
       st src .other .plain (some ⟨54, 62⟩) [
        ex src (.cast true false) (some .int) .plain 61 (some ⟨61, 62⟩) (fun f => { f with intVal := some 42, boolVal := some true, cxx11Const := true }) [
         ex src .other (some .int) .operand 61 (some ⟨61, 62⟩) (fun f => { f with lvalue := true, const := true, intVal := some 42, boolVal := some true, cxx11Const := true }) []]]]]]
    expected := "// DREDD PRELUDE START\n// If this has been inserted at an inappropriate place in a source file,\n// declare a placeholder function with the following signature to\n// mandate where the prelude should be placed:\n//\n// void __dredd_prelude_start();\n//\n#include <atomic>\n#include <cinttypes>\n#include <cstddef>\n#include <fstream>\n#include <functional>\n#include <sstream>\n#include <string>\n\n\n#ifdef _MSC_VER\n#define thread_local __declspec(thread)\n#elif __APPLE__\n#define thread_local __thread\n#endif\n\nstatic thread_local bool __dredd_some_mutation_enabled = true;\nstatic bool __dredd_enabled_mutation(int local_mutation_id) {\n  static thread_local bool initialized = false;\n  static thread_local uint64_t enabled_bitset[1];\n  if (!initialized) {\n    bool some_mutation_enabled = false;\n    const char* dredd_environment_variable = std::getenv(\"DREDD_ENABLED_MUTATION\");\n    if (dredd_environment_variable != nullptr) {\n      std::string contents(dredd_environment_variable);\n      while (true) {\n        size_t pos = contents.find(\",\");\n        std::string token = (pos == std::string::npos ? contents : contents.substr(0, pos));\n        if (!token.empty()) {\n          int value = std::stoi(token);\n          int local_value = value - 0;\n          if (local_value >= 0 && local_value < 11) {\n            enabled_bitset[local_value / 64] |= (static_cast<uint64_t>(1) << (local_value % 64));\n            some_mutation_enabled = true;\n          }\n        }\n        if (pos == std::string::npos) {\n          break;\n        }\n        contents.erase(0, pos + 1);\n      }\n    }\n    initialized = true;\n    __dredd_some_mutation_enabled = some_mutation_enabled;\n  }\n  return (enabled_bitset[local_mutation_id / 64] & (static_cast<uint64_t>(1) << (local_mutation_id % 64))) != 0;\n}\n\nstatic int __dredd_replace_expr_int_constant(int arg, int local_mutation_id) {\n  if (!__dredd_some_mutation_enabled) return arg;\n  if (__dredd_enabled_mutation(local_mutation_id + 0)) return ~(arg);\n  if (__dredd_enabled_mutation(local_mutation_id + 1)) return -(arg);\n  if (__dredd_enabled_mutation(local_mutation_id + 2)) return 0;\n  if (__dredd_enabled_mutation(local_mutation_id + 3)) return 1;\n  if (__dredd_enabled_mutation(local_mutation_id + 4)) return -1;\n  return arg;\n}\n\nint foo() {\n  const int a = __dredd_replace_expr_int_constant(42, 0);\n  static_assert(1);\n  if (!__dredd_enabled_mutation(10)) { return __dredd_replace_expr_int_constant(a, 5); }\n}\n"
    noopt := "// DREDD PRELUDE START\n// If this has been inserted at an inappropriate place in a source file,\n// declare a placeholder function with the following signature to\n// mandate where the prelude should be placed:\n//\n// void __dredd_prelude_start();\n//\n#include <atomic>\n#include <cinttypes>\n#include <cstddef>\n#include <fstream>\n#include <functional>\n#include <sstream>\n#include <string>\n\n\n#ifdef _MSC_VER\n#define thread_local __declspec(thread)\n#elif __APPLE__\n#define thread_local __thread\n#endif\n\nstatic thread_local bool __dredd_some_mutation_enabled = true;\nstatic bool __dredd_enabled_mutation(int local_mutation_id) {\n  static thread_local bool initialized = false;\n  static thread_local uint64_t enabled_bitset[1];\n  if (!initialized) {\n    bool some_mutation_enabled = false;\n    const char* dredd_environment_variable = std::getenv(\"DREDD_ENABLED_MUTATION\");\n    if (dredd_environment_variable != nullptr) {\n      std::string contents(dredd_environment_variable);\n      while (true) {\n        size_t pos = contents.find(\",\");\n        std::string token = (pos == std::string::npos ? contents : contents.substr(0, pos));\n        if (!token.empty()) {\n          int value = std::stoi(token);\n          int local_value = value - 0;\n          if (local_value >= 0 && local_value < 13) {\n            enabled_bitset[local_value / 64] |= (static_cast<uint64_t>(1) << (local_value % 64));\n            some_mutation_enabled = true;\n          }\n        }\n        if (pos == std::string::npos) {\n          break;\n        }\n        contents.erase(0, pos + 1);\n      }\n    }\n    initialized = true;\n    __dredd_some_mutation_enabled = some_mutation_enabled;\n  }\n  return (enabled_bitset[local_mutation_id / 64] & (static_cast<uint64_t>(1) << (local_mutation_id % 64))) != 0;\n}\n\nstatic int __dredd_replace_expr_int(int arg, int local_mutation_id) {\n  if (!__dredd_some_mutation_enabled) return arg;\n  if (__dredd_enabled_mutation(local_mutation_id + 0)) return !(arg);\n  if (__dredd_enabled_mutation(local_mutation_id + 1)) return ~(arg);\n  if (__dredd_enabled_mutation(local_mutation_id + 2)) return -(arg);\n  if (__dredd_enabled_mutation(local_mutation_id + 3)) return 0;\n  if (__dredd_enabled_mutation(local_mutation_id + 4)) return 1;\n  if (__dredd_enabled_mutation(local_mutation_id + 5)) return -1;\n  return arg;\n}\n\nint foo() {\n  const int a = __dredd_replace_expr_int(42, 0);\n  static_assert(1);\n  if (!__dredd_enabled_mutation(12)) { return __dredd_replace_expr_int(a, 6); }\n}\n" }

#guard static_assert_rewrite_cc.ok

/-- test/single_file/static_constexpr_array.cc -/
def static_constexpr_array_cc : Case :=
  let src : Text := t!"void foo() {\n  const int a = 4;\n  static constexpr char b[a]{};\n}\n"
  { name := "static_constexpr_array.cc", lang := cpp, src := src, ast :=
    .decl ⟨.tu, none⟩ [
     .decl ⟨.func false none, (some ⟨0, 65⟩)⟩ [
      st src .compound .plain (some ⟨11, 65⟩) [
       st src .declStmt .plain (some ⟨15, 31⟩) [
        .decl ⟨.var ⟨25, false, [], [], false, false, false⟩, (some ⟨15, 30⟩)⟩ [
         ex src .other (some .int) .plain 29 (some ⟨29, 30⟩) (fun f => { f with intVal := some 4, boolVal := some true, cxx11Const := true }) []]],
       st src .declStmt .plain (some ⟨34, 63⟩) [
        .decl ⟨.var ⟨56, true, [⟨1, (some ⟨58, 59⟩), some ⟨64, false, 4⟩⟩], [], true, false, true⟩, (some ⟨34, 62⟩)⟩ [
         .other .constArrayType [
          ex src (.cast true false) (some .ulong) .plain 58 (some ⟨58, 59⟩) (fun f => { f with intVal := some 4, boolVal := some true, cxx11Const := true }) [
           ex src (.cast true false) (some .int) .operand 58 (some ⟨58, 59⟩) (fun f => { f with intVal := some 4, boolVal := some true, cxx11Const := true }) [
            ex src .other (some .int) .operand 58 (some ⟨58, 59⟩) (fun f => { f with lvalue := true, const := true, intVal := some 4, boolVal := some true, cxx11Const := true }) []]]],
         ex src .initList none .plain 60 (some ⟨60, 62⟩) id []]]]]]
    expected := "// DREDD PRELUDE START\n// If this has been inserted at an inappropriate place in a source file,\n// declare a placeholder function with the following signature to\n// mandate where the prelude should be placed:\n//\n// void __dredd_prelude_start();\n//\n#include <atomic>\n#include <cinttypes>\n#include <cstddef>\n#include <fstream>\n#include <functional>\n#include <sstream>\n#include <string>\n\n\n#ifdef _MSC_VER\n#define thread_local __declspec(thread)\n#elif __APPLE__\n#define thread_local __thread\n#endif\n\nstatic thread_local bool __dredd_some_mutation_enabled = true;\nstatic bool __dredd_enabled_mutation(int local_mutation_id) {\n  static thread_local bool initialized = false;\n  static thread_local uint64_t enabled_bitset[1];\n  if (!initialized) {\n    bool some_mutation_enabled = false;\n    const char* dredd_environment_variable = std::getenv(\"DREDD_ENABLED_MUTATION\");\n    if (dredd_environment_variable != nullptr) {\n      std::string contents(dredd_environment_variable);\n      while (true) {\n        size_t pos = contents.find(\",\");\n        std::string token = (pos == std::string::npos ? contents : contents.substr(0, pos));\n        if (!token.empty()) {\n          int value = std::stoi(token);\n          int local_value = value - 0;\n          if (local_value >= 0 && local_value < 5) {\n            enabled_bitset[local_value / 64] |= (static_cast<uint64_t>(1) << (local_value % 64));\n            some_mutation_enabled = true;\n          }\n        }\n        if (pos == std::string::npos) {\n          break;\n        }\n        contents.erase(0, pos + 1);\n      }\n    }\n    initialized = true;\n    __dredd_some_mutation_enabled = some_mutation_enabled;\n  }\n  return (enabled_bitset[local_mutation_id / 64] & (static_cast<uint64_t>(1) << (local_mutation_id % 64))) != 0;\n}\n\nstatic int __dredd_replace_expr_int_constant(int arg, int local_mutation_id) {\n  if (!__dredd_some_mutation_enabled) return arg;\n  if (__dredd_enabled_mutation(local_mutation_id + 0)) return ~(arg);\n  if (__dredd_enabled_mutation(local_mutation_id + 1)) return -(arg);\n  if (__dredd_enabled_mutation(local_mutation_id + 2)) return 0;\n  if (__dredd_enabled_mutation(local_mutation_id + 3)) return 1;\n  if (__dredd_enabled_mutation(local_mutation_id + 4)) return -1;\n  return arg;\n}\n\nvoid foo() {\n  const int a = __dredd_replace_expr_int_constant(4, 0);\n  static constexpr char b[4]{};\n}\n"
    noopt := "// DREDD PRELUDE START\n// If this has been inserted at an inappropriate place in a source file,\n// declare a placeholder function with the following signature to\n// mandate where the prelude should be placed:\n//\n// void __dredd_prelude_start();\n//\n#include <atomic>\n#include <cinttypes>\n#include <cstddef>\n#include <fstream>\n#include <functional>\n#include <sstream>\n#include <string>\n\n\n#ifdef _MSC_VER\n#define thread_local __declspec(thread)\n#elif __APPLE__\n#define thread_local __thread\n#endif\n\nstatic thread_local bool __dredd_some_mutation_enabled = true;\nstatic bool __dredd_enabled_mutation(int local_mutation_id) {\n  static thread_local bool initialized = false;\n  static thread_local uint64_t enabled_bitset[1];\n  if (!initialized) {\n    bool some_mutation_enabled = false;\n    const char* dredd_environment_variable = std::getenv(\"DREDD_ENABLED_MUTATION\");\n    if (dredd_environment_variable != nullptr) {\n      std::string contents(dredd_environment_variable);\n      while (true) {\n        size_t pos = contents.find(\",\");\n        std::string token = (pos == std::string::npos ? contents : contents.substr(0, pos));\n        if (!token.empty()) {\n          int value = std::stoi(token);\n          int local_value = value - 0;\n          if (local_value >= 0 && local_value < 6) {\n            enabled_bitset[local_value / 64] |= (static_cast<uint64_t>(1) << (local_value % 64));\n            some_mutation_enabled = true;\n          }\n        }\n        if (pos == std::string::npos) {\n          break;\n        }\n        contents.erase(0, pos + 1);\n      }\n    }\n    initialized = true;\n    __dredd_some_mutation_enabled = some_mutation_enabled;\n  }\n  return (enabled_bitset[local_mutation_id / 64] & (static_cast<uint64_t>(1) << (local_mutation_id % 64))) != 0;\n}\n\nstatic int __dredd_replace_expr_int(int arg, int local_mutation_id) {\n  if (!__dredd_some_mutation_enabled) return arg;\n  if (__dredd_enabled_mutation(local_mutation_id + 0)) return !(arg);\n  if (__dredd_enabled_mutation(local_mutation_id + 1)) return ~(arg);\n  if (__dredd_enabled_mutation(local_mutation_id + 2)) return -(arg);\n  if (__dredd_enabled_mutation(local_mutation_id + 3)) return 0;\n  if (__dredd_enabled_mutation(local_mutation_id + 4)) return 1;\n  if (__dredd_enabled_mutation(local_mutation_id + 5)) return -1;\n  return arg;\n}\n\nvoid foo() {\n  const int a = __dredd_replace_expr_int(4, 0);\n  static constexpr char b[4]{};\n}\n" }

#guard static_constexpr_array_cc.ok

/-- test/single_file/static_initializer.c -/
def static_initializer_c : Case :=
  let src : Text := t!"void foo() {\n  static int a = 1 + 2;\n}\n"
  { name := "static_initializer.c", lang := c, src := src, ast :=
    .decl ⟨.tu, none⟩ [
     .decl ⟨.func false none, (some ⟨0, 38⟩)⟩ [
      st src .compound .plain (some ⟨11, 38⟩) [
       st src .declStmt .plain (some ⟨15, 36⟩) [
        .decl ⟨.var ⟨26, false, [], [], false, false, true⟩, (some ⟨15, 35⟩)⟩ [
         ex src (.binary .add) (some .int) .plain 30 (some ⟨30, 35⟩) (fun f => { f with intVal := some 3, boolVal := some true, opOff := some 32 }) [
          ex src .other (some .int) .lhs 30 (some ⟨30, 31⟩) (fun f => { f with intVal := some 1, boolVal := some true }) [],
          ex src .other (some .int) .rhs 34 (some ⟨34, 35⟩) (fun f => { f with intVal := some 2, boolVal := some true }) []]]]]]]
    expected := "void foo() {\n  static int a = 1 + 2;\n}\n"
    noopt := "void foo() {\n  static int a = 1 + 2;\n}\n" }

#guard static_initializer_c.ok

/-- test/single_file/struct_field_array_constant_size_rewrite.cc -/
def struct_field_array_constant_size_rewrite_cc : Case :=
  let src : Text := t!"void foo() {\n  const int a = 42;\n  struct b {\n    int bar[a];\n  };\n}\n"
  { name := "struct_field_array_constant_size_rewrite.cc", lang := cpp, src := src, ast :=
    .decl ⟨.tu, none⟩ [
     .decl ⟨.func false none, (some ⟨0, 68⟩)⟩ [
      st src .compound .plain (some ⟨11, 68⟩) [
       st src .declStmt .plain (some ⟨15, 32⟩) [
        .decl ⟨.var ⟨25, false, [], [], false, false, false⟩, (some ⟨15, 31⟩)⟩ [
         ex src .other (some .int) .plain 29 (some ⟨29, 31⟩) (fun f => { f with intVal := some 42, boolVal := some true, cxx11Const := true }) []]],
       st src .declStmt .plain (some ⟨35, 66⟩) [
        .decl ⟨.other, (some ⟨35, 65⟩)⟩ [
         .decl ⟨.field true [⟨1, (some ⟨58, 59⟩), some ⟨64, false, 42⟩⟩], (some ⟨50, 60⟩)⟩ [
          .other .constArrayType [
           ex src (.cast true false) (some .ulong) .plain 58 (some ⟨58, 59⟩) (fun f => { f with intVal := some 42, boolVal := some true, cxx11Const := true }) [
            ex src (.cast true false) (some .int) .operand 58 (some ⟨58, 59⟩) (fun f => { f with intVal := some 42, boolVal := some true, cxx11Const := true }) [
             ex src .other (some .int) .operand 58 (some ⟨58, 59⟩) (fun f => { f with lvalue := true, const := true, intVal := some 42, boolVal := some true, cxx11Const := true }) []]]]]]]]]]
    expected := "// DREDD PRELUDE START\n// If this has been inserted at an inappropriate place in a source file,\n// declare a placeholder function with the following signature to\n// mandate where the prelude should be placed:\n//\n// void __dredd_prelude_start();\n//\n#include <atomic>\n#include <cinttypes>\n#include <cstddef>\n#include <fstream>\n#include <functional>\n#include <sstream>\n#include <string>\n\n\n#ifdef _MSC_VER\n#define thread_local __declspec(thread)\n#elif __APPLE__\n#define thread_local __thread\n#endif\n\nstatic thread_local bool __dredd_some_mutation_enabled = true;\nstatic bool __dredd_enabled_mutation(int local_mutation_id) {\n  static thread_local bool initialized = false;\n  static thread_local uint64_t enabled_bitset[1];\n  if (!initialized) {\n    bool some_mutation_enabled = false;\n    const char* dredd_environment_variable = std::getenv(\"DREDD_ENABLED_MUTATION\");\n    if (dredd_environment_variable != nullptr) {\n      std::string contents(dredd_environment_variable);\n      while (true) {\n        size_t pos = contents.find(\",\");\n        std::string token = (pos == std::string::npos ? contents : contents.substr(0, pos));\n        if (!token.empty()) {\n          int value = std::stoi(token);\n          int local_value = value - 0;\n          if (local_value >= 0 && local_value < 5) {\n            enabled_bitset[local_value / 64] |= (static_cast<uint64_t>(1) << (local_value % 64));\n            some_mutation_enabled = true;\n          }\n        }\n        if (pos == std::string::npos) {\n          break;\n        }\n        contents.erase(0, pos + 1);\n      }\n    }\n    initialized = true;\n    __dredd_some_mutation_enabled = some_mutation_enabled;\n  }\n  return (enabled_bitset[local_mutation_id / 64] & (static_cast<uint64_t>(1) << (local_mutation_id % 64))) != 0;\n}\n\nstatic int __dredd_replace_expr_int_constant(int arg, int local_mutation_id) {\n  if (!__dredd_some_mutation_enabled) return arg;\n  if (__dredd_enabled_mutation(local_mutation_id + 0)) return ~(arg);\n  if (__dredd_enabled_mutation(local_mutation_id + 1)) return -(arg);\n  if (__dredd_enabled_mutation(local_mutation_id + 2)) return 0;\n  if (__dredd_enabled_mutation(local_mutation_id + 3)) return 1;\n  if (__dredd_enabled_mutation(local_mutation_id + 4)) return -1;\n  return arg;\n}\n\nvoid foo() {\n  const int a = __dredd_replace_expr_int_constant(42, 0);\n  struct b {\n    int bar[42];\n  };\n}\n"
    noopt := "// DREDD PRELUDE START\n// If this has been inserted at an inappropriate place in a source file,\n// declare a placeholder function with the following signature to\n// mandate where the prelude should be placed:\n//\n// void __dredd_prelude_start();\n//\n#include <atomic>\n#include <cinttypes>\n#include <cstddef>\n#include <fstream>\n#include <functional>\n#include <sstream>\n#include <string>\n\n\n#ifdef _MSC_VER\n#define thread_local __declspec(thread)\n#elif __APPLE__\n#define thread_local __thread\n#endif\n\nstatic thread_local bool __dredd_some_mutation_enabled = true;\nstatic bool __dredd_enabled_mutation(int local_mutation_id) {\n  static thread_local bool initialized = false;\n  static thread_local uint64_t enabled_bitset[1];\n  if (!initialized) {\n    bool some_mutation_enabled = false;\n    const char* dredd_environment_variable = std::getenv(\"DREDD_ENABLED_MUTATION\");\n    if (dredd_environment_variable != nullptr) {\n      std::string contents(dredd_environment_variable);\n      while (true) {\n        size_t pos = contents.find(\",\");\n        std::string token = (pos == std::string::npos ? contents : contents.substr(0, pos));\n        if (!token.empty()) {\n          int value = std::stoi(token);\n          int local_value = value - 0;\n          if (local_value >= 0 && local_value < 6) {\n            enabled_bitset[local_value / 64] |= (static_cast<uint64_t>(1) << (local_value % 64));\n            some_mutation_enabled = true;\n          }\n        }\n        if (pos == std::string::npos) {\n          break;\n        }\n        contents.erase(0, pos + 1);\n      }\n    }\n    initialized = true;\n    __dredd_some_mutation_enabled = some_mutation_enabled;\n  }\n  return (enabled_bitset[local_mutation_id / 64] & (static_cast<uint64_t>(1) << (local_mutation_id % 64))) != 0;\n}\n\nstatic int __dredd_replace_expr_int(int arg, int local_mutation_id) {\n  if (!__dredd_some_mutation_enabled) return arg;\n  if (__dredd_enabled_mutation(local_mutation_id + 0)) return !(arg);\n  if (__dredd_enabled_mutation(local_mutation_id + 1)) return ~(arg);\n  if (__dredd_enabled_mutation(local_mutation_id + 2)) return -(arg);\n  if (__dredd_enabled_mutation(local_mutation_id + 3)) return 0;\n  if (__dredd_enabled_mutation(local_mutation_id + 4)) return 1;\n  if (__dredd_enabled_mutation(local_mutation_id + 5)) return -1;\n  return arg;\n}\n\nvoid foo() {\n  const int a = __dredd_replace_expr_int(42, 0);\n  struct b {\n    int bar[42];\n  };\n}\n" }

#guard struct_field_array_constant_size_rewrite_cc.ok

/-- test/single_file/typedef.c -/
def typedef_c : Case :=
  let src : Text := t!"typedef struct S {\n  int x;\n} SomeS;\n\nvoid foo() {\n  1 + 2;\n}\n"
  { name := "typedef.c", lang := c, src := src, ast :=
    .decl ⟨.tu, none⟩ [
     .decl ⟨.other, (some ⟨8, 29⟩)⟩ [
      .decl ⟨.field false [], (some ⟨21, 26⟩)⟩ []],
     .decl ⟨.other, (some ⟨0, 35⟩)⟩ [],
     .decl ⟨.func false none, (some ⟨38, 61⟩)⟩ [
      st src .compound .plain (some ⟨49, 61⟩) [
       ex src (.binary .add) (some .int) .plain 53 (some ⟨53, 58⟩) (fun f => { f with intVal := some 3, boolVal := some true, opOff := some 55 }) [
        ex src .other (some .int) .lhs 53 (some ⟨53, 54⟩) (fun f => { f with intVal := some 1, boolVal := some true }) [],
        ex src .other (some .int) .rhs 57 (some ⟨57, 58⟩) (fun f => { f with intVal := some 2, boolVal := some true }) []]]]]
    expected := "typedef struct S {\n  int x;\n} SomeS;\n\nvoid foo() {\n  1 + 2;\n}\n"
    noopt := "// DREDD PRELUDE START\n// If this has been inserted at an inappropriate place in a source file,\n// declare a placeholder function with the following signature to\n// mandate where the prelude should be placed:\n//\n// void __dredd_prelude_start();\n//\n#include <inttypes.h>\n#include <stdatomic.h>\n#include <stdbool.h>\n#include <stdio.h>\n#include <stdlib.h>\n#include <string.h>\n\n#ifdef _MSC_VER\n#define thread_local __declspec(thread)\n#elif __APPLE__\n#define thread_local __thread\n#else\n#include <threads.h>\n#endif\n\nstatic thread_local int __dredd_some_mutation_enabled = 1;\nstatic bool __dredd_enabled_mutation(int local_mutation_id) {\n  static thread_local int initialized = 0;\n  static thread_local uint64_t enabled_bitset[1];\n  if (!initialized) {\n    int some_mutation_enabled = 0;\n    const char* dredd_environment_variable = getenv(\"DREDD_ENABLED_MUTATION\");\n    if (dredd_environment_variable) {\n      char* temp = malloc(strlen(dredd_environment_variable) + 1);\n      strcpy(temp, dredd_environment_variable);\n      char* token;\n      token = strtok(temp, \",\");\n      while(token) {\n        int value = atoi(token);\n        int local_value = value - 0;\n        if (local_value >= 0 && local_value < 25) {\n          enabled_bitset[local_value / 64] |= ((uint64_t) 1 << (local_value % 64));\n          some_mutation_enabled = 1;\n        }\n        token = strtok(NULL, \",\");\n      }\n      free(temp);\n    }\n    initialized = 1;\n    __dredd_some_mutation_enabled = some_mutation_enabled;\n  }\n  return enabled_bitset[local_mutation_id / 64] & ((uint64_t) 1 << (local_mutation_id % 64));\n}\n\nstatic int __dredd_replace_expr_int(int arg, int local_mutation_id) {\n  if (!__dredd_some_mutation_enabled) return arg;\n  if (__dredd_enabled_mutation(local_mutation_id + 0)) return !(arg);\n  if (__dredd_enabled_mutation(local_mutation_id + 1)) return ~(arg);\n  if (__dredd_enabled_mutation(local_mutation_id + 2)) return -(arg);\n  if (__dredd_enabled_mutation(local_mutation_id + 3)) return 0;\n  if (__dredd_enabled_mutation(local_mutation_id + 4)) return 1;\n  if (__dredd_enabled_mutation(local_mutation_id + 5)) return -1;\n  return arg;\n}\n\nstatic int __dredd_replace_binary_operator_Add_arg1_int_arg2_int(int arg1, int arg2, int local_mutation_id) {\n  if (!__dredd_some_mutation_enabled) return arg1 + arg2;\n  if (__dredd_enabled_mutation(local_mutation_id + 0)) return arg1 / arg2;\n  if (__dredd_enabled_mutation(local_mutation_id + 1)) return arg1 * arg2;\n  if (__dredd_enabled_mutation(local_mutation_id + 2)) return arg1 % arg2;\n  if (__dredd_enabled_mutation(local_mutation_id + 3)) return arg1 - arg2;\n  if (__dredd_enabled_mutation(local_mutation_id + 4)) return arg1;\n  if (__dredd_enabled_mutation(local_mutation_id + 5)) return arg2;\n  return arg1 + arg2;\n}\n\ntypedef struct S {\n  int x;\n} SomeS;\n\nvoid foo() {\n  if (!__dredd_enabled_mutation(24)) { __dredd_replace_expr_int(__dredd_replace_binary_operator_Add_arg1_int_arg2_int(__dredd_replace_expr_int(1, 0) , __dredd_replace_expr_int(2, 6), 12), 18); }\n}\n" }

#guard typedef_c.ok

/-- test/single_file/typedef.cc -/
def typedef_cc : Case :=
  let src : Text := t!"typedef struct S {\n  int x;\n} SomeS;\n\nvoid foo() {\n  1 + 2;\n}\n"
  { name := "typedef.cc", lang := cpp, src := src, ast :=
    .decl ⟨.tu, none⟩ [
     .decl ⟨.other, (some ⟨8, 29⟩)⟩ [
      .decl ⟨.field false [], (some ⟨21, 26⟩)⟩ []],
     .decl ⟨.other, (some ⟨0, 35⟩)⟩ [],
     .decl ⟨.func false none, (some ⟨38, 61⟩)⟩ [
      st src .compound .plain (some ⟨49, 61⟩) [
       ex src (.binary .add) (some .int) .plain 53 (some ⟨53, 58⟩) (fun f => { f with intVal := some 3, boolVal := some true, cxx11Const := true, opOff := some 55 }) [
        ex src .other (some .int) .lhs 53 (some ⟨53, 54⟩) (fun f => { f with intVal := some 1, boolVal := some true, cxx11Const := true }) [],
        ex src .other (some .int) .rhs 57 (some ⟨57, 58⟩) (fun f => { f with intVal := some 2, boolVal := some true, cxx11Const := true }) []]]]]
    expected := "typedef struct S {\n  int x;\n} SomeS;\n\nvoid foo() {\n  1 + 2;\n}\n"
    noopt := "// DREDD PRELUDE START\n// If this has been inserted at an inappropriate place in a source file,\n// declare a placeholder function with the following signature to\n// mandate where the prelude should be placed:\n//\n// void __dredd_prelude_start();\n//\n#include <atomic>\n#include <cinttypes>\n#include <cstddef>\n#include <fstream>\n#include <functional>\n#include <sstream>\n#include <string>\n\n\n#ifdef _MSC_VER\n#define thread_local __declspec(thread)\n#elif __APPLE__\n#define thread_local __thread\n#endif\n\nstatic thread_local bool __dredd_some_mutation_enabled = true;\nstatic bool __dredd_enabled_mutation(int local_mutation_id) {\n  static thread_local bool initialized = false;\n  static thread_local uint64_t enabled_bitset[1];\n  if (!initialized) {\n    bool some_mutation_enabled = false;\n    const char* dredd_environment_variable = std::getenv(\"DREDD_ENABLED_MUTATION\");\n    if (dredd_environment_variable != nullptr) {\n      std::string contents(dredd_environment_variable);\n      while (true) {\n        size_t pos = contents.find(\",\");\n        std::string token = (pos == std::string::npos ? contents : contents.substr(0, pos));\n        if (!token.empty()) {\n          int value = std::stoi(token);\n          int local_value = value - 0;\n          if (local_value >= 0 && local_value < 25) {\n            enabled_bitset[local_value / 64] |= (static_cast<uint64_t>(1) << (local_value % 64));\n            some_mutation_enabled = true;\n          }\n        }\n        if (pos == std::string::npos) {\n          break;\n        }\n        contents.erase(0, pos + 1);\n      }\n    }\n    initialized = true;\n    __dredd_some_mutation_enabled = some_mutation_enabled;\n  }\n  return (enabled_bitset[local_mutation_id / 64] & (static_cast<uint64_t>(1) << (local_mutation_id % 64))) != 0;\n}\n\nstatic int __dredd_replace_expr_int(int arg, int local_mutation_id) {\n  if (!__dredd_some_mutation_enabled) return arg;\n  if (__dredd_enabled_mutation(local_mutation_id + 0)) return !(arg);\n  if (__dredd_enabled_mutation(local_mutation_id + 1)) return ~(arg);\n  if (__dredd_enabled_mutation(local_mutation_id + 2)) return -(arg);\n  if (__dredd_enabled_mutation(local_mutation_id + 3)) return 0;\n  if (__dredd_enabled_mutation(local_mutation_id + 4)) return 1;\n  if (__dredd_enabled_mutation(local_mutation_id + 5)) return -1;\n  return arg;\n}\n\nstatic int __dredd_replace_binary_operator_Add_arg1_int_arg2_int(int arg1, int arg2, int local_mutation_id) {\n  if (!__dredd_some_mutation_enabled) return arg1 + arg2;\n  if (__dredd_enabled_mutation(local_mutation_id + 0)) return arg1 / arg2;\n  if (__dredd_enabled_mutation(local_mutation_id + 1)) return arg1 * arg2;\n  if (__dredd_enabled_mutation(local_mutation_id + 2)) return arg1 % arg2;\n  if (__dredd_enabled_mutation(local_mutation_id + 3)) return arg1 - arg2;\n  if (__dredd_enabled_mutation(local_mutation_id + 4)) return arg1;\n  if (__dredd_enabled_mutation(local_mutation_id + 5)) return arg2;\n  return arg1 + arg2;\n}\n\ntypedef struct S {\n  int x;\n} SomeS;\n\nvoid foo() {\n  if (!__dredd_enabled_mutation(24)) { __dredd_replace_expr_int(__dredd_replace_binary_operator_Add_arg1_int_arg2_int(__dredd_replace_expr_int(1, 0) , __dredd_replace_expr_int(2, 6), 12), 18); }\n}\n" }

#guard typedef_cc.ok

/-- test/single_file/unary.c -/
def unary_c : Case :=
  let src : Text := t!"int main() {\n  int x = 3;\n  float y = 3.532;\n  x++;\n  y++;\n  ++x;\n  ++y;\n  --x;\n  --y;\n  x--;\n  y--;\n  return -x;\n}\n"
  { name := "unary.c", lang := c, src := src, ast :=
    .decl ⟨.tu, none⟩ [
     .decl ⟨.func false none, (some ⟨0, 115⟩)⟩ [
      st src .compound .plain (some ⟨11, 115⟩) [
       st src .declStmt .plain (some ⟨15, 25⟩) [
        .decl ⟨.var ⟨19, false, [], [], false, false, false⟩, (some ⟨15, 24⟩)⟩ [
         ex src .other (some .int) .plain 23 (some ⟨23, 24⟩) (fun f => { f with intVal := some 3, boolVal := some true }) []]],
       st src .declStmt .plain (some ⟨28, 44⟩) [
        .decl ⟨.var ⟨34, false, [], [], false, false, false⟩, (some ⟨28, 43⟩)⟩ [
         ex src (.cast true false) (some .float) .plain 38 (some ⟨38, 43⟩) (fun f => { f with floatVal := some .other, boolVal := some true }) [
          ex src .other (some .double) .operand 38 (some ⟨38, 43⟩) (fun f => { f with floatVal := some .other, boolVal := some true }) []]]],
       ex src (.unary .postInc) (some .int) .plain 47 (some ⟨47, 50⟩) (fun f => { f with sideEffects := true, opOff := some 48 }) [
        ex src .other (some .int) .operand 47 (some ⟨47, 48⟩) (fun f => { f with lvalue := true }) []],
       ex src (.unary .postInc) (some .float) .plain 54 (some ⟨54, 57⟩) (fun f => { f with sideEffects := true, opOff := some 55 }) [
        ex src .other (some .float) .operand 54 (some ⟨54, 55⟩) (fun f => { f with lvalue := true }) []],
       ex src (.unary .preInc) (some .int) .plain 61 (some ⟨61, 64⟩) (fun f => { f with sideEffects := true, opOff := some 61 }) [
        ex src .other (some .int) .operand 63 (some ⟨63, 64⟩) (fun f => { f with lvalue := true }) []],
       ex src (.unary .preInc) (some .float) .plain 68 (some ⟨68, 71⟩) (fun f => { f with sideEffects := true, opOff := some 68 }) [
        ex src .other (some .float) .operand 70 (some ⟨70, 71⟩) (fun f => { f with lvalue := true }) []],
       ex src (.unary .preDec) (some .int) .plain 75 (some ⟨75, 78⟩) (fun f => { f with sideEffects := true, opOff := some 75 }) [
        ex src .other (some .int) .operand 77 (some ⟨77, 78⟩) (fun f => { f with lvalue := true }) []],
       ex src (.unary .preDec) (some .float) .plain 82 (some ⟨82, 85⟩) (fun f => { f with sideEffects := true, opOff := some 82 }) [
        ex src .other (some .float) .operand 84 (some ⟨84, 85⟩) (fun f => { f with lvalue := true }) []],
       ex src (.unary .postDec) (some .int) .plain 89 (some ⟨89, 92⟩) (fun f => { f with sideEffects := true, opOff := some 90 }) [
        ex src .other (some .int) .operand 89 (some ⟨89, 90⟩) (fun f => { f with lvalue := true }) []],
       ex src (.unary .postDec) (some .float) .plain 96 (some ⟨96, 99⟩) (fun f => { f with sideEffects := true, opOff := some 97 }) [
        ex src .other (some .float) .operand 96 (some ⟨96, 97⟩) (fun f => { f with lvalue := true }) []],
       st src .other .plain (some ⟨103, 112⟩) [
        ex src (.unary .minus) (some .int) .plain 110 (some ⟨110, 112⟩) (fun f => { f with opOff := some 110 }) [
         ex src (.cast true false) (some .int) .operand 111 (some ⟨111, 112⟩) id [
          ex src .other (some .int) .operand 111 (some ⟨111, 112⟩) (fun f => { f with lvalue := true }) []]]]]]]
    expected := "// DREDD PRELUDE START\n// If this has been inserted at an inappropriate place in a source file,\n// declare a placeholder function with the following signature to\n// mandate where the prelude should be placed:\n//\n// void __dredd_prelude_start();\n//\n#include <inttypes.h>\n#include <stdatomic.h>\n#include <stdbool.h>\n#include <stdio.h>\n#include <stdlib.h>\n#include <string.h>\n\n#ifdef _MSC_VER\n#define thread_local __declspec(thread)\n#elif __APPLE__\n#define thread_local __thread\n#else\n#include <threads.h>\n#endif\n\nstatic thread_local int __dredd_some_mutation_enabled = 1;\nstatic bool __dredd_enabled_mutation(int local_mutation_id) {\n  static thread_local int initialized = 0;\n  static thread_local uint64_t enabled_bitset[2];\n  if (!initialized) {\n    int some_mutation_enabled = 0;\n    const char* dredd_environment_variable = getenv(\"DREDD_ENABLED_MUTATION\");\n    if (dredd_environment_variable) {\n      char* temp = malloc(strlen(dredd_environment_variable) + 1);\n      strcpy(temp, dredd_environment_variable);\n      char* token;\n      token = strtok(temp, \",\");\n      while(token) {\n        int value = atoi(token);\n        int local_value = value - 0;\n        if (local_value >= 0 && local_value < 70) {\n          enabled_bitset[local_value / 64] |= ((uint64_t) 1 << (local_value % 64));\n          some_mutation_enabled = 1;\n        }\n        token = strtok(NULL, \",\");\n      }\n      free(temp);\n    }\n    initialized = 1;\n    __dredd_some_mutation_enabled = some_mutation_enabled;\n  }\n  return enabled_bitset[local_mutation_id / 64] & ((uint64_t) 1 << (local_mutation_id % 64));\n}\n\nstatic int __dredd_replace_unary_operator_PreInc_int(int* arg, int local_mutation_id) {\n  if (!__dredd_some_mutation_enabled) return ++(*arg);\n  if (__dredd_enabled_mutation(local_mutation_id + 0)) return --(*arg);\n  if (__dredd_enabled_mutation(local_mutation_id + 1)) return ~(*arg);\n  if (__dredd_enabled_mutation(local_mutation_id + 2)) return -(*arg);\n  if (__dredd_enabled_mutation(local_mutation_id + 3)) return !(*arg);\n  if (__dredd_enabled_mutation(local_mutation_id + 4)) return (*arg);\n  return ++(*arg);\n}\n\nstatic int __dredd_replace_unary_operator_PreDec_int(int* arg, int local_mutation_id) {\n  if (!__dredd_some_mutation_enabled) return --(*arg);\n  if (__dredd_enabled_mutation(local_mutation_id + 0)) return ++(*arg);\n  if (__dredd_enabled_mutation(local_mutation_id + 1)) return ~(*arg);\n  if (__dredd_enabled_mutation(local_mutation_id + 2)) return -(*arg);\n  if (__dredd_enabled_mutation(local_mutation_id + 3)) return !(*arg);\n  if (__dredd_enabled_mutation(local_mutation_id + 4)) return (*arg);\n  return --(*arg);\n}\n\nstatic int __dredd_replace_unary_operator_PostInc_int(int* arg, int local_mutation_id) {\n  if (!__dredd_some_mutation_enabled) return (*arg)++;\n  if (__dredd_enabled_mutation(local_mutation_id + 0)) return (*arg)--;\n  if (__dredd_enabled_mutation(local_mutation_id + 1)) return ~(*arg);\n  if (__dredd_enabled_mutation(local_mutation_id + 2)) return -(*arg);\n  if (__dredd_enabled_mutation(local_mutation_id + 3)) return !(*arg);\n  if (__dredd_enabled_mutation(local_mutation_id + 4)) return (*arg);\n  return (*arg)++;\n}\n\nstatic int __dredd_replace_unary_operator_PostDec_int(int* arg, int local_mutation_id) {\n  if (!__dredd_some_mutation_enabled) return (*arg)--;\n  if (__dredd_enabled_mutation(local_mutation_id + 0)) return (*arg)++;\n  if (__dredd_enabled_mutation(local_mutation_id + 1)) return ~(*arg);\n  if (__dredd_enabled_mutation(local_mutation_id + 2)) return -(*arg);\n  if (__dredd_enabled_mutation(local_mutation_id + 3)) return !(*arg);\n  if (__dredd_enabled_mutation(local_mutation_id + 4)) return (*arg);\n  return (*arg)--;\n}\n\nstatic int __dredd_replace_unary_operator_Minus_int(int arg, int local_mutation_id) {\n  if (!__dredd_some_mutation_enabled) return -arg;\n  if (__dredd_enabled_mutation(local_mutation_id + 0)) return ~arg;\n  if (__dredd_enabled_mutation(local_mutation_id + 1)) return !arg;\n  return -arg;\n}\n\nstatic int __dredd_replace_expr_int_lvalue(int* arg, int local_mutation_id) {\n  if (!__dredd_some_mutation_enabled) return (*arg);\n  if (__dredd_enabled_mutation(local_mutation_id + 0)) return ++((*arg));\n  if (__dredd_enabled_mutation(local_mutation_id + 1)) return --((*arg));\n  return (*arg);\n}\n\nstatic int __dredd_replace_expr_int_constant(int arg, int local_mutation_id) {\n  if (!__dredd_some_mutation_enabled) return arg;\n  if (__dredd_enabled_mutation(local_mutation_id + 0)) return ~(arg);\n  if (__dredd_enabled_mutation(local_mutation_id + 1)) return -(arg);\n  if (__dredd_enabled_mutation(local_mutation_id + 2)) return 0;\n  if (__dredd_enabled_mutation(local_mutation_id + 3)) return 1;\n  if (__dredd_enabled_mutation(local_mutation_id + 4)) return -1;\n  return arg;\n}\n\nstatic int __dredd_replace_expr_int(int arg, int local_mutation_id) {\n  if (!__dredd_some_mutation_enabled) return arg;\n  if (__dredd_enabled_mutation(local_mutation_id + 0)) return !(arg);\n  if (__dredd_enabled_mutation(local_mutation_id + 1)) return ~(arg);\n  if (__dredd_enabled_mutation(local_mutation_id + 2)) return -(arg);\n  if (__dredd_enabled_mutation(local_mutation_id + 3)) return 0;\n  if (__dredd_enabled_mutation(local_mutation_id + 4)) return 1;\n  if (__dredd_enabled_mutation(local_mutation_id + 5)) return -1;\n  return arg;\n}\n\nstatic float __dredd_replace_unary_operator_PreInc_float(float* arg, int local_mutation_id) {\n  if (!__dredd_some_mutation_enabled) return ++(*arg);\n  if (__dredd_enabled_mutation(local_mutation_id + 0)) return --(*arg);\n  if (__dredd_enabled_mutation(local_mutation_id + 1)) return -(*arg);\n  if (__dredd_enabled_mutation(local_mutation_id + 2)) return !(*arg);\n  if (__dredd_enabled_mutation(local_mutation_id + 3)) return (*arg);\n  return ++(*arg);\n}\n\nstatic float __dredd_replace_unary_operator_PreDec_float(float* arg, int local_mutation_id) {\n  if (!__dredd_some_mutation_enabled) return --(*arg);\n  if (__dredd_enabled_mutation(local_mutation_id + 0)) return ++(*arg);\n  if (__dredd_enabled_mutation(local_mutation_id + 1)) return -(*arg);\n  if (__dredd_enabled_mutation(local_mutation_id + 2)) return !(*arg);\n  if (__dredd_enabled_mutation(local_mutation_id + 3)) return (*arg);\n  return --(*arg);\n}\n\nstatic float __dredd_replace_unary_operator_PostInc_float(float* arg, int local_mutation_id) {\n  if (!__dredd_some_mutation_enabled) return (*arg)++;\n  if (__dredd_enabled_mutation(local_mutation_id + 0)) return (*arg)--;\n  if (__dredd_enabled_mutation(local_mutation_id + 1)) return -(*arg);\n  if (__dredd_enabled_mutation(local_mutation_id + 2)) return !(*arg);\n  if (__dredd_enabled_mutation(local_mutation_id + 3)) return (*arg);\n  return (*arg)++;\n}\n\nstatic float __dredd_replace_unary_operator_PostDec_float(float* arg, int local_mutation_id) {\n  if (!__dredd_some_mutation_enabled) return (*arg)--;\n  if (__dredd_enabled_mutation(local_mutation_id + 0)) return (*arg)++;\n  if (__dredd_enabled_mutation(local_mutation_id + 1)) return -(*arg);\n  if (__dredd_enabled_mutation(local_mutation_id + 2)) return !(*arg);\n  if (__dredd_enabled_mutation(local_mutation_id + 3)) return (*arg);\n  return (*arg)--;\n}\n\nstatic float __dredd_replace_expr_float(float arg, int local_mutation_id) {\n  if (!__dredd_some_mutation_enabled) return arg;\n  if (__dredd_enabled_mutation(local_mutation_id + 0)) return -(arg);\n  if (__dredd_enabled_mutation(local_mutation_id + 1)) return 0.0;\n  if (__dredd_enabled_mutation(local_mutation_id + 2)) return 1.0;\n  if (__dredd_enabled_mutation(local_mutation_id + 3)) return -1.0;\n  return arg;\n}\n\nint main() {\n  int x = __dredd_replace_expr_int_constant(3, 0);\n  float y = __dredd_replace_expr_float(3.532, 5);\n  if (!__dredd_enabled_mutation(14)) { __dredd_replace_unary_operator_PostInc_int(&(x), 9); }\n  if (!__dredd_enabled_mutation(19)) { __dredd_replace_unary_operator_PostInc_float(&(y), 15); }\n  if (!__dredd_enabled_mutation(25)) { __dredd_replace_unary_operator_PreInc_int(&(x), 20); }\n  if (!__dredd_enabled_mutation(30)) { __dredd_replace_unary_operator_PreInc_float(&(y), 26); }\n  if (!__dredd_enabled_mutation(36)) { __dredd_replace_unary_operator_PreDec_int(&(x), 31); }\n  if (!__dredd_enabled_mutation(41)) { __dredd_replace_unary_operator_PreDec_float(&(y), 37); }\n  if (!__dredd_enabled_mutation(47)) { __dredd_replace_unary_operator_PostDec_int(&(x), 42); }\n  if (!__dredd_enabled_mutation(52)) { __dredd_replace_unary_operator_PostDec_float(&(y), 48); }\n  if (!__dredd_enabled_mutation(69)) { return __dredd_replace_expr_int(__dredd_replace_unary_operator_Minus_int(__dredd_replace_expr_int(__dredd_replace_expr_int_lvalue(&(x), 53), 55), 61), 63); }\n}\n"
    noopt := "// DREDD PRELUDE START\n// If this has been inserted at an inappropriate place in a source file,\n// declare a placeholder function with the following signature to\n// mandate where the prelude should be placed:\n//\n// void __dredd_prelude_start();\n//\n#include <inttypes.h>\n#include <stdatomic.h>\n#include <stdbool.h>\n#include <stdio.h>\n#include <stdlib.h>\n#include <string.h>\n\n#ifdef _MSC_VER\n#define thread_local __declspec(thread)\n#elif __APPLE__\n#define thread_local __thread\n#else\n#include <threads.h>\n#endif\n\nstatic thread_local int __dredd_some_mutation_enabled = 1;\nstatic bool __dredd_enabled_mutation(int local_mutation_id) {\n  static thread_local int initialized = 0;\n  static thread_local uint64_t enabled_bitset[2];\n  if (!initialized) {\n    int some_mutation_enabled = 0;\n    const char* dredd_environment_variable = getenv(\"DREDD_ENABLED_MUTATION\");\n    if (dredd_environment_variable) {\n      char* temp = malloc(strlen(dredd_environment_variable) + 1);\n      strcpy(temp, dredd_environment_variable);\n      char* token;\n      token = strtok(temp, \",\");\n      while(token) {\n        int value = atoi(token);\n        int local_value = value - 0;\n        if (local_value >= 0 && local_value < 116) {\n          enabled_bitset[local_value / 64] |= ((uint64_t) 1 << (local_value % 64));\n          some_mutation_enabled = 1;\n        }\n        token = strtok(NULL, \",\");\n      }\n      free(temp);\n    }\n    initialized = 1;\n    __dredd_some_mutation_enabled = some_mutation_enabled;\n  }\n  return enabled_bitset[local_mutation_id / 64] & ((uint64_t) 1 << (local_mutation_id % 64));\n}\n\nstatic int __dredd_replace_unary_operator_PreInc_int(int* arg, int local_mutation_id) {\n  if (!__dredd_some_mutation_enabled) return ++(*arg);\n  if (__dredd_enabled_mutation(local_mutation_id + 0)) return --(*arg);\n  if (__dredd_enabled_mutation(local_mutation_id + 1)) return ~(*arg);\n  if (__dredd_enabled_mutation(local_mutation_id + 2)) return -(*arg);\n  if (__dredd_enabled_mutation(local_mutation_id + 3)) return !(*arg);\n  if (__dredd_enabled_mutation(local_mutation_id + 4)) return (*arg);\n  return ++(*arg);\n}\n\nstatic int __dredd_replace_unary_operator_PreDec_int(int* arg, int local_mutation_id) {\n  if (!__dredd_some_mutation_enabled) return --(*arg);\n  if (__dredd_enabled_mutation(local_mutation_id + 0)) return ++(*arg);\n  if (__dredd_enabled_mutation(local_mutation_id + 1)) return ~(*arg);\n  if (__dredd_enabled_mutation(local_mutation_id + 2)) return -(*arg);\n  if (__dredd_enabled_mutation(local_mutation_id + 3)) return !(*arg);\n  if (__dredd_enabled_mutation(local_mutation_id + 4)) return (*arg);\n  return --(*arg);\n}\n\nstatic int __dredd_replace_unary_operator_PostInc_int(int* arg, int local_mutation_id) {\n  if (!__dredd_some_mutation_enabled) return (*arg)++;\n  if (__dredd_enabled_mutation(local_mutation_id + 0)) return (*arg)--;\n  if (__dredd_enabled_mutation(local_mutation_id + 1)) return ~(*arg);\n  if (__dredd_enabled_mutation(local_mutation_id + 2)) return -(*arg);\n  if (__dredd_enabled_mutation(local_mutation_id + 3)) return !(*arg);\n  if (__dredd_enabled_mutation(local_mutation_id + 4)) return (*arg);\n  return (*arg)++;\n}\n\nstatic int __dredd_replace_unary_operator_PostDec_int(int* arg, int local_mutation_id) {\n  if (!__dredd_some_mutation_enabled) return (*arg)--;\n  if (__dredd_enabled_mutation(local_mutation_id + 0)) return (*arg)++;\n  if (__dredd_enabled_mutation(local_mutation_id + 1)) return ~(*arg);\n  if (__dredd_enabled_mutation(local_mutation_id + 2)) return -(*arg);\n  if (__dredd_enabled_mutation(local_mutation_id + 3)) return !(*arg);\n  if (__dredd_enabled_mutation(local_mutation_id + 4)) return (*arg);\n  return (*arg)--;\n}\n\nstatic int __dredd_replace_unary_operator_Minus_int(int arg, int local_mutation_id) {\n  if (!__dredd_some_mutation_enabled) return -arg;\n  if (__dredd_enabled_mutation(local_mutation_id + 0)) return ~arg;\n  if (__dredd_enabled_mutation(local_mutation_id + 1)) return !arg;\n  if (__dredd_enabled_mutation(local_mutation_id + 2)) return arg;\n  return -arg;\n}\n\nstatic int __dredd_replace_expr_int_lvalue(int* arg, int local_mutation_id) {\n  if (!__dredd_some_mutation_enabled) return (*arg);\n  if (__dredd_enabled_mutation(local_mutation_id + 0)) return ++((*arg));\n  if (__dredd_enabled_mutation(local_mutation_id + 1)) return --((*arg));\n  return (*arg);\n}\n\nstatic int __dredd_replace_expr_int(int arg, int local_mutation_id) {\n  if (!__dredd_some_mutation_enabled) return arg;\n  if (__dredd_enabled_mutation(local_mutation_id + 0)) return !(arg);\n  if (__dredd_enabled_mutation(local_mutation_id + 1)) return ~(arg);\n  if (__dredd_enabled_mutation(local_mutation_id + 2)) return -(arg);\n  if (__dredd_enabled_mutation(local_mutation_id + 3)) return 0;\n  if (__dredd_enabled_mutation(local_mutation_id + 4)) return 1;\n  if (__dredd_enabled_mutation(local_mutation_id + 5)) return -1;\n  return arg;\n}\n\nstatic float __dredd_replace_unary_operator_PreInc_float(float* arg, int local_mutation_id) {\n  if (!__dredd_some_mutation_enabled) return ++(*arg);\n  if (__dredd_enabled_mutation(local_mutation_id + 0)) return --(*arg);\n  if (__dredd_enabled_mutation(local_mutation_id + 1)) return -(*arg);\n  if (__dredd_enabled_mutation(local_mutation_id + 2)) return !(*arg);\n  if (__dredd_enabled_mutation(local_mutation_id + 3)) return (*arg);\n  return ++(*arg);\n}\n\nstatic float __dredd_replace_unary_operator_PreDec_float(float* arg, int local_mutation_id) {\n  if (!__dredd_some_mutation_enabled) return --(*arg);\n  if (__dredd_enabled_mutation(local_mutation_id + 0)) return ++(*arg);\n  if (__dredd_enabled_mutation(local_mutation_id + 1)) return -(*arg);\n  if (__dredd_enabled_mutation(local_mutation_id + 2)) return !(*arg);\n  if (__dredd_enabled_mutation(local_mutation_id + 3)) return (*arg);\n  return --(*arg);\n}\n\nstatic float __dredd_replace_unary_operator_PostInc_float(float* arg, int local_mutation_id) {\n  if (!__dredd_some_mutation_enabled) return (*arg)++;\n  if (__dredd_enabled_mutation(local_mutation_id + 0)) return (*arg)--;\n  if (__dredd_enabled_mutation(local_mutation_id + 1)) return -(*arg);\n  if (__dredd_enabled_mutation(local_mutation_id + 2)) return !(*arg);\n  if (__dredd_enabled_mutation(local_mutation_id + 3)) return (*arg);\n  return (*arg)++;\n}\n\nstatic float __dredd_replace_unary_operator_PostDec_float(float* arg, int local_mutation_id) {\n  if (!__dredd_some_mutation_enabled) return (*arg)--;\n  if (__dredd_enabled_mutation(local_mutation_id + 0)) return (*arg)++;\n  if (__dredd_enabled_mutation(local_mutation_id + 1)) return -(*arg);\n  if (__dredd_enabled_mutation(local_mutation_id + 2)) return !(*arg);\n  if (__dredd_enabled_mutation(local_mutation_id + 3)) return (*arg);\n  return (*arg)--;\n}\n\nstatic float __dredd_replace_expr_float(float arg, int local_mutation_id) {\n  if (!__dredd_some_mutation_enabled) return arg;\n  if (__dredd_enabled_mutation(local_mutation_id + 0)) return -(arg);\n  if (__dredd_enabled_mutation(local_mutation_id + 1)) return 0.0;\n  if (__dredd_enabled_mutation(local_mutation_id + 2)) return 1.0;\n  if (__dredd_enabled_mutation(local_mutation_id + 3)) return -1.0;\n  return arg;\n}\n\nstatic double __dredd_replace_expr_double(double arg, int local_mutation_id) {\n  if (!__dredd_some_mutation_enabled) return arg;\n  if (__dredd_enabled_mutation(local_mutation_id + 0)) return -(arg);\n  if (__dredd_enabled_mutation(local_mutation_id + 1)) return 0.0;\n  if (__dredd_enabled_mutation(local_mutation_id + 2)) return 1.0;\n  if (__dredd_enabled_mutation(local_mutation_id + 3)) return -1.0;\n  return arg;\n}\n\nint main() {\n  int x = __dredd_replace_expr_int(3, 0);\n  float y = __dredd_replace_expr_float(__dredd_replace_expr_double(3.532, 6), 10);\n  if (!__dredd_enabled_mutation(25)) { __dredd_replace_expr_int(__dredd_replace_unary_operator_PostInc_int(&(x), 14), 19); }\n  if (!__dredd_enabled_mutation(34)) { __dredd_replace_expr_float(__dredd_replace_unary_operator_PostInc_float(&(y), 26), 30); }\n  if (!__dredd_enabled_mutation(46)) { __dredd_replace_expr_int(__dredd_replace_unary_operator_PreInc_int(&(x), 35), 40); }\n  if (!__dredd_enabled_mutation(55)) { __dredd_replace_expr_float(__dredd_replace_unary_operator_PreInc_float(&(y), 47), 51); }\n  if (!__dredd_enabled_mutation(67)) { __dredd_replace_expr_int(__dredd_replace_unary_operator_PreDec_int(&(x), 56), 61); }\n  if (!__dredd_enabled_mutation(76)) { __dredd_replace_expr_float(__dredd_replace_unary_operator_PreDec_float(&(y), 68), 72); }\n  if (!__dredd_enabled_mutation(88)) { __dredd_replace_expr_int(__dredd_replace_unary_operator_PostDec_int(&(x), 77), 82); }\n  if (!__dredd_enabled_mutation(97)) { __dredd_replace_expr_float(__dredd_replace_unary_operator_PostDec_float(&(y), 89), 93); }\n  if (!__dredd_enabled_mutation(115)) { return __dredd_replace_expr_int(__dredd_replace_unary_operator_Minus_int(__dredd_replace_expr_int(__dredd_replace_expr_int_lvalue(&(x), 98), 100), 106), 109); }\n}\n" }

#guard unary_c.ok

end Dredd.Tests
