/-
Tests, not proofs: files of /repo/test/single_file, part 2.  Each case has the source, the
syntax tree of the source and the output that the repository expects for it, with and
without optimisations.  The trees were made by a program that parses the sources.
-/
import Verif.Tests.Case

namespace Dredd.Tests

/-- test/single_file/const_init.cc -/
def const_init_cc : Case :=
  let src : Text := t!"int main() {\n  [[clang::require_constant_initialization]] static int x = 0;\n}\n"
  { name := "const_init.cc", lang := cpp, src := src, ast :=
    .decl ⟨.tu, none⟩ [
     .decl ⟨.func false none, (some ⟨0, 77⟩)⟩ [
      st src .compound .plain (some ⟨11, 77⟩) [
       st src .declStmt .plain (some ⟨15, 75⟩) [
        .decl ⟨.var ⟨69, false, [], [], false, true, true⟩, (some ⟨15, 74⟩)⟩ [
         ex src .other (some .int) .plain 73 (some ⟨73, 74⟩) (fun f => { f with intVal := some 0, boolVal := some false, cxx11Const := true, nullConst := true }) []]]]]]
    expected := "int main() {\n  [[clang::require_constant_initialization]] static int x = 0;\n}\n"
    noopt := "int main() {\n  [[clang::require_constant_initialization]] static int x = 0;\n}\n" }

#guard const_init_cc.ok

/-- test/single_file/const_sized_array_int.c -/
def const_sized_array_int_c : Case :=
  let src : Text := t!"void foo() {\n  int A[1 + 3] = {0};\n}\n"
  { name := "const_sized_array_int.c", lang := c, src := src, ast :=
    .decl ⟨.tu, none⟩ [
     .decl ⟨.func false none, (some ⟨0, 36⟩)⟩ [
      st src .compound .plain (some ⟨11, 36⟩) [
       st src .declStmt .plain (some ⟨15, 34⟩) [
        .decl ⟨.var ⟨19, true, [⟨1, (some ⟨21, 26⟩), some ⟨32, true, 4⟩⟩], [], false, false, false⟩, (some ⟨15, 33⟩)⟩ [
         .other .constArrayType [
          ex src (.binary .add) (some .int) .plain 21 (some ⟨21, 26⟩) (fun f => { f with intVal := some 4, boolVal := some true, opOff := some 23 }) [
           ex src .other (some .int) .lhs 21 (some ⟨21, 22⟩) (fun f => { f with intVal := some 1, boolVal := some true }) [],
           ex src .other (some .int) .rhs 25 (some ⟨25, 26⟩) (fun f => { f with intVal := some 3, boolVal := some true }) []]],
         ex src .initList none .plain 30 (some ⟨30, 33⟩) id [
          ex src .other (some .int) .plain 31 (some ⟨31, 32⟩) (fun f => { f with intVal := some 0, boolVal := some false, nullConst := true }) []]]]]]]
    expected := "// DREDD PRELUDE START\n// If this has been inserted at an inappropriate place in a source file,\n// declare a placeholder function with the following signature to\n// mandate where the prelude should be placed:\n//\n// void __dredd_prelude_start();\n//\n#include <inttypes.h>\n#include <stdatomic.h>\n#include <stdbool.h>\n#include <stdio.h>\n#include <stdlib.h>\n#include <string.h>\n\n#ifdef _MSC_VER\n#define thread_local __declspec(thread)\n#elif __APPLE__\n#define thread_local __thread\n#else\n#include <threads.h>\n#endif\n\nstatic thread_local int __dredd_some_mutation_enabled = 1;\nstatic bool __dredd_enabled_mutation(int local_mutation_id) {\n  static thread_local int initialized = 0;\n  static thread_local uint64_t enabled_bitset[1];\n  if (!initialized) {\n    int some_mutation_enabled = 0;\n    const char* dredd_environment_variable = getenv(\"DREDD_ENABLED_MUTATION\");\n    if (dredd_environment_variable) {\n      char* temp = malloc(strlen(dredd_environment_variable) + 1);\n      strcpy(temp, dredd_environment_variable);\n      char* token;\n      token = strtok(temp, \",\");\n      while(token) {\n        int value = atoi(token);\n        int local_value = value - 0;\n        if (local_value >= 0 && local_value < 2) {\n          enabled_bitset[local_value / 64] |= ((uint64_t) 1 << (local_value % 64));\n          some_mutation_enabled = 1;\n        }\n        token = strtok(NULL, \",\");\n      }\n      free(temp);\n    }\n    initialized = 1;\n    __dredd_some_mutation_enabled = some_mutation_enabled;\n  }\n  return enabled_bitset[local_mutation_id / 64] & ((uint64_t) 1 << (local_mutation_id % 64));\n}\n\nstatic int __dredd_replace_expr_int_zero(int arg, int local_mutation_id) {\n  if (!__dredd_some_mutation_enabled) return arg;\n  if (__dredd_enabled_mutation(local_mutation_id + 0)) return 1;\n  if (__dredd_enabled_mutation(local_mutation_id + 1)) return -1;\n  return arg;\n}\n\nvoid foo() {\n  int A[1 + 3] = {__dredd_replace_expr_int_zero(0, 0)};\n}\n"
    noopt := "// DREDD PRELUDE START\n// If this has been inserted at an inappropriate place in a source file,\n// declare a placeholder function with the following signature to\n// mandate where the prelude should be placed:\n//\n// void __dredd_prelude_start();\n//\n#include <inttypes.h>\n#include <stdatomic.h>\n#include <stdbool.h>\n#include <stdio.h>\n#include <stdlib.h>\n#include <string.h>\n\n#ifdef _MSC_VER\n#define thread_local __declspec(thread)\n#elif __APPLE__\n#define thread_local __thread\n#else\n#include <threads.h>\n#endif\n\nstatic thread_local int __dredd_some_mutation_enabled = 1;\nstatic bool __dredd_enabled_mutation(int local_mutation_id) {\n  static thread_local int initialized = 0;\n  static thread_local uint64_t enabled_bitset[1];\n  if (!initialized) {\n    int some_mutation_enabled = 0;\n    const char* dredd_environment_variable = getenv(\"DREDD_ENABLED_MUTATION\");\n    if (dredd_environment_variable) {\n      char* temp = malloc(strlen(dredd_environment_variable) + 1);\n      strcpy(temp, dredd_environment_variable);\n      char* token;\n      token = strtok(temp, \",\");\n      while(token) {\n        int value = atoi(token);\n        int local_value = value - 0;\n        if (local_value >= 0 && local_value < 6) {\n          enabled_bitset[local_value / 64] |= ((uint64_t) 1 << (local_value % 64));\n          some_mutation_enabled = 1;\n        }\n        token = strtok(NULL, \",\");\n      }\n      free(temp);\n    }\n    initialized = 1;\n    __dredd_some_mutation_enabled = some_mutation_enabled;\n  }\n  return enabled_bitset[local_mutation_id / 64] & ((uint64_t) 1 << (local_mutation_id % 64));\n}\n\nstatic int __dredd_replace_expr_int(int arg, int local_mutation_id) {\n  if (!__dredd_some_mutation_enabled) return arg;\n  if (__dredd_enabled_mutation(local_mutation_id + 0)) return !(arg);\n  if (__dredd_enabled_mutation(local_mutation_id + 1)) return ~(arg);\n  if (__dredd_enabled_mutation(local_mutation_id + 2)) return -(arg);\n  if (__dredd_enabled_mutation(local_mutation_id + 3)) return 0;\n  if (__dredd_enabled_mutation(local_mutation_id + 4)) return 1;\n  if (__dredd_enabled_mutation(local_mutation_id + 5)) return -1;\n  return arg;\n}\n\nvoid foo() {\n  int A[1 + 3] = {__dredd_replace_expr_int(0, 0)};\n}\n" }

#guard const_sized_array_int_c.ok

/-- test/single_file/const_sized_array_int.cc -/
def const_sized_array_int_cc : Case :=
  let src : Text := t!"void foo() {\n  int A[1 + 3] = {0};\n}\n"
  { name := "const_sized_array_int.cc", lang := cpp, src := src, ast :=
    .decl ⟨.tu, none⟩ [
     .decl ⟨.func false none, (some ⟨0, 36⟩)⟩ [
      st src .compound .plain (some ⟨11, 36⟩) [
       st src .declStmt .plain (some ⟨15, 34⟩) [
        .decl ⟨.var ⟨19, true, [⟨1, (some ⟨21, 26⟩), some ⟨64, false, 4⟩⟩], [], false, false, false⟩, (some ⟨15, 33⟩)⟩ [
         .other .constArrayType [
          ex src (.cast true false) (some .ulong) .plain 21 (some ⟨21, 26⟩) (fun f => { f with intVal := some 4, boolVal := some true, cxx11Const := true }) [
           ex src (.binary .add) (some .int) .operand 21 (some ⟨21, 26⟩) (fun f => { f with intVal := some 4, boolVal := some true, cxx11Const := true, opOff := some 23 }) [
            ex src .other (some .int) .lhs 21 (some ⟨21, 22⟩) (fun f => { f with intVal := some 1, boolVal := some true, cxx11Const := true }) [],
            ex src .other (some .int) .rhs 25 (some ⟨25, 26⟩) (fun f => { f with intVal := some 3, boolVal := some true, cxx11Const := true }) []]]],
         ex src .initList none .plain 30 (some ⟨30, 33⟩) id [
          ex src .other (some .int) .plain 31 (some ⟨31, 32⟩) (fun f => { f with intVal := some 0, boolVal := some false, cxx11Const := true, nullConst := true }) []]]]]]]
    expected := "// DREDD PRELUDE START\n// If this has been inserted at an inappropriate place in a source file,\n// declare a placeholder function with the following signature to\n// mandate where the prelude should be placed:\n//\n// void __dredd_prelude_start();\n//\n#include <atomic>\n#include <cinttypes>\n#include <cstddef>\n#include <fstream>\n#include <functional>\n#include <sstream>\n#include <string>\n\n\n#ifdef _MSC_VER\n#define thread_local __declspec(thread)\n#elif __APPLE__\n#define thread_local __thread\n#endif\n\nstatic thread_local bool __dredd_some_mutation_enabled = true;\nstatic bool __dredd_enabled_mutation(int local_mutation_id) {\n  static thread_local bool initialized = false;\n  static thread_local uint64_t enabled_bitset[1];\n  if (!initialized) {\n    bool some_mutation_enabled = false;\n    const char* dredd_environment_variable = std::getenv(\"DREDD_ENABLED_MUTATION\");\n    if (dredd_environment_variable != nullptr) {\n      std::string contents(dredd_environment_variable);\n      while (true) {\n        size_t pos = contents.find(\",\");\n        std::string token = (pos == std::string::npos ? contents : contents.substr(0, pos));\n        if (!token.empty()) {\n          int value = std::stoi(token);\n          int local_value = value - 0;\n          if (local_value >= 0 && local_value < 2) {\n            enabled_bitset[local_value / 64] |= (static_cast<uint64_t>(1) << (local_value % 64));\n            some_mutation_enabled = true;\n          }\n        }\n        if (pos == std::string::npos) {\n          break;\n        }\n        contents.erase(0, pos + 1);\n      }\n    }\n    initialized = true;\n    __dredd_some_mutation_enabled = some_mutation_enabled;\n  }\n  return (enabled_bitset[local_mutation_id / 64] & (static_cast<uint64_t>(1) << (local_mutation_id % 64))) != 0;\n}\n\nstatic int __dredd_replace_expr_int_zero(int arg, int local_mutation_id) {\n  if (!__dredd_some_mutation_enabled) return arg;\n  if (__dredd_enabled_mutation(local_mutation_id + 0)) return 1;\n  if (__dredd_enabled_mutation(local_mutation_id + 1)) return -1;\n  return arg;\n}\n\nvoid foo() {\n  int A[4] = {__dredd_replace_expr_int_zero(0, 0)};\n}\n"
    noopt := "// DREDD PRELUDE START\n// If this has been inserted at an inappropriate place in a source file,\n// declare a placeholder function with the following signature to\n// mandate where the prelude should be placed:\n//\n// void __dredd_prelude_start();\n//\n#include <atomic>\n#include <cinttypes>\n#include <cstddef>\n#include <fstream>\n#include <functional>\n#include <sstream>\n#include <string>\n\n\n#ifdef _MSC_VER\n#define thread_local __declspec(thread)\n#elif __APPLE__\n#define thread_local __thread\n#endif\n\nstatic thread_local bool __dredd_some_mutation_enabled = true;\nstatic bool __dredd_enabled_mutation(int local_mutation_id) {\n  static thread_local bool initialized = false;\n  static thread_local uint64_t enabled_bitset[1];\n  if (!initialized) {\n    bool some_mutation_enabled = false;\n    const char* dredd_environment_variable = std::getenv(\"DREDD_ENABLED_MUTATION\");\n    if (dredd_environment_variable != nullptr) {\n      std::string contents(dredd_environment_variable);\n      while (true) {\n        size_t pos = contents.find(\",\");\n        std::string token = (pos == std::string::npos ? contents : contents.substr(0, pos));\n        if (!token.empty()) {\n          int value = std::stoi(token);\n          int local_value = value - 0;\n          if (local_value >= 0 && local_value < 6) {\n            enabled_bitset[local_value / 64] |= (static_cast<uint64_t>(1) << (local_value % 64));\n            some_mutation_enabled = true;\n          }\n        }\n        if (pos == std::string::npos) {\n          break;\n        }\n        contents.erase(0, pos + 1);\n      }\n    }\n    initialized = true;\n    __dredd_some_mutation_enabled = some_mutation_enabled;\n  }\n  return (enabled_bitset[local_mutation_id / 64] & (static_cast<uint64_t>(1) << (local_mutation_id % 64))) != 0;\n}\n\nstatic int __dredd_replace_expr_int(int arg, int local_mutation_id) {\n  if (!__dredd_some_mutation_enabled) return arg;\n  if (__dredd_enabled_mutation(local_mutation_id + 0)) return !(arg);\n  if (__dredd_enabled_mutation(local_mutation_id + 1)) return ~(arg);\n  if (__dredd_enabled_mutation(local_mutation_id + 2)) return -(arg);\n  if (__dredd_enabled_mutation(local_mutation_id + 3)) return 0;\n  if (__dredd_enabled_mutation(local_mutation_id + 4)) return 1;\n  if (__dredd_enabled_mutation(local_mutation_id + 5)) return -1;\n  return arg;\n}\n\nvoid foo() {\n  int A[4] = {__dredd_replace_expr_int(0, 0)};\n}\n" }

#guard const_sized_array_int_cc.ok

/-- test/single_file/constexpr.cc -/
def constexpr_cc : Case :=
  let src : Text := t!"// Checks that operator mutations are not applied to constexprs.\nnamespace foo {\nconstexpr int a = -2 + ~3;\n};\n"
  { name := "constexpr.cc", lang := cpp, src := src, ast :=
    .decl ⟨.tu, none⟩ [
     .decl ⟨.other, (some ⟨65, 109⟩)⟩ [
      .decl ⟨.var ⟨95, false, [], [], true, false, false⟩, (some ⟨81, 106⟩)⟩ [
       ex src (.binary .add) (some .int) .plain 99 (some ⟨99, 106⟩) (fun f => { f with intVal := some (-6), boolVal := some true, cxx11Const := true, opOff := some 102 }) [
        ex src (.unary .minus) (some .int) .lhs 99 (some ⟨99, 101⟩) (fun f => { f with intVal := some (-2), boolVal := some true, cxx11Const := true, opOff := some 99 }) [
         ex src .other (some .int) .operand 100 (some ⟨100, 101⟩) (fun f => { f with intVal := some 2, boolVal := some true, cxx11Const := true }) []],
        ex src (.unary .not) (some .int) .rhs 104 (some ⟨104, 106⟩) (fun f => { f with intVal := some (-4), boolVal := some true, cxx11Const := true, opOff := some 104 }) [
         ex src .other (some .int) .operand 105 (some ⟨105, 106⟩) (fun f => { f with intVal := some 3, boolVal := some true, cxx11Const := true }) []]]]],
     .decl ⟨.other, (some ⟨109, 110⟩)⟩ []]
    expected := "// Checks that operator mutations are not applied to constexprs.\nnamespace foo {\nconstexpr int a = -2 + ~3;\n};\n"
    noopt := "// Checks that operator mutations are not applied to constexprs.\nnamespace foo {\nconstexpr int a = -2 + ~3;\n};\n" }

#guard constexpr_cc.ok

/-- test/single_file/constexpr_array.cc -/
def constexpr_array_cc : Case :=
  let src : Text := t!"void foo() {\n  const int a = 4;\n  constexpr char b[a]{};\n}\n"
  { name := "constexpr_array.cc", lang := cpp, src := src, ast :=
    .decl ⟨.tu, none⟩ [
     .decl ⟨.func false none, (some ⟨0, 58⟩)⟩ [
      st src .compound .plain (some ⟨11, 58⟩) [
       st src .declStmt .plain (some ⟨15, 31⟩) [
        .decl ⟨.var ⟨25, false, [], [], false, false, false⟩, (some ⟨15, 30⟩)⟩ [
         ex src .other (some .int) .plain 29 (some ⟨29, 30⟩) (fun f => { f with intVal := some 4, boolVal := some true, cxx11Const := true }) []]],
       st src .declStmt .plain (some ⟨34, 56⟩) [
        .decl ⟨.var ⟨49, true, [⟨1, (some ⟨51, 52⟩), some ⟨64, false, 4⟩⟩], [], true, false, false⟩, (some ⟨34, 55⟩)⟩ [
         .other .constArrayType [
          ex src (.cast true false) (some .ulong) .plain 51 (some ⟨51, 52⟩) (fun f => { f with intVal := some 4, boolVal := some true, cxx11Const := true }) [
           ex src (.cast true false) (some .int) .operand 51 (some ⟨51, 52⟩) (fun f => { f with intVal := some 4, boolVal := some true, cxx11Const := true }) [
            ex src .other (some .int) .operand 51 (some ⟨51, 52⟩) (fun f => { f with lvalue := true, const := true, intVal := some 4, boolVal := some true, cxx11Const := true }) []]]],
         ex src .initList none .plain 53 (some ⟨53, 55⟩) id []]]]]]
    expected := "// DREDD PRELUDE START\n// If this has been inserted at an inappropriate place in a source file,\n// declare a placeholder function with the following signature to\n// mandate where the prelude should be placed:\n//\n// void __dredd_prelude_start();\n//\n#include <atomic>\n#include <cinttypes>\n#include <cstddef>\n#include <fstream>\n#include <functional>\n#include <sstream>\n#include <string>\n\n\n#ifdef _MSC_VER\n#define thread_local __declspec(thread)\n#elif __APPLE__\n#define thread_local __thread\n#endif\n\nstatic thread_local bool __dredd_some_mutation_enabled = true;\nstatic bool __dredd_enabled_mutation(int local_mutation_id) {\n  static thread_local bool initialized = false;\n  static thread_local uint64_t enabled_bitset[1];\n  if (!initialized) {\n    bool some_mutation_enabled = false;\n    const char* dredd_environment_variable = std::getenv(\"DREDD_ENABLED_MUTATION\");\n    if (dredd_environment_variable != nullptr) {\n      std::string contents(dredd_environment_variable);\n      while (true) {\n        size_t pos = contents.find(\",\");\n        std::string token = (pos == std::string::npos ? contents : contents.substr(0, pos));\n        if (!token.empty()) {\n          int value = std::stoi(token);\n          int local_value = value - 0;\n          if (local_value >= 0 && local_value < 5) {\n            enabled_bitset[local_value / 64] |= (static_cast<uint64_t>(1) << (local_value % 64));\n            some_mutation_enabled = true;\n          }\n        }\n        if (pos == std::string::npos) {\n          break;\n        }\n        contents.erase(0, pos + 1);\n      }\n    }\n    initialized = true;\n    __dredd_some_mutation_enabled = some_mutation_enabled;\n  }\n  return (enabled_bitset[local_mutation_id / 64] & (static_cast<uint64_t>(1) << (local_mutation_id % 64))) != 0;\n}\n\nstatic int __dredd_replace_expr_int_constant(int arg, int local_mutation_id) {\n  if (!__dredd_some_mutation_enabled) return arg;\n  if (__dredd_enabled_mutation(local_mutation_id + 0)) return ~(arg);\n  if (__dredd_enabled_mutation(local_mutation_id + 1)) return -(arg);\n  if (__dredd_enabled_mutation(local_mutation_id + 2)) return 0;\n  if (__dredd_enabled_mutation(local_mutation_id + 3)) return 1;\n  if (__dredd_enabled_mutation(local_mutation_id + 4)) return -1;\n  return arg;\n}\n\nvoid foo() {\n  const int a = __dredd_replace_expr_int_constant(4, 0);\n  constexpr char b[4]{};\n}\n"
    noopt := "// DREDD PRELUDE START\n// If this has been inserted at an inappropriate place in a source file,\n// declare a placeholder function with the following signature to\n// mandate where the prelude should be placed:\n//\n// void __dredd_prelude_start();\n//\n#include <atomic>\n#include <cinttypes>\n#include <cstddef>\n#include <fstream>\n#include <functional>\n#include <sstream>\n#include <string>\n\n\n#ifdef _MSC_VER\n#define thread_local __declspec(thread)\n#elif __APPLE__\n#define thread_local __thread\n#endif\n\nstatic thread_local bool __dredd_some_mutation_enabled = true;\nstatic bool __dredd_enabled_mutation(int local_mutation_id) {\n  static thread_local bool initialized = false;\n  static thread_local uint64_t enabled_bitset[1];\n  if (!initialized) {\n    bool some_mutation_enabled = false;\n    const char* dredd_environment_variable = std::getenv(\"DREDD_ENABLED_MUTATION\");\n    if (dredd_environment_variable != nullptr) {\n      std::string contents(dredd_environment_variable);\n      while (true) {\n        size_t pos = contents.find(\",\");\n        std::string token = (pos == std::string::npos ? contents : contents.substr(0, pos));\n        if (!token.empty()) {\n          int value = std::stoi(token);\n          int local_value = value - 0;\n          if (local_value >= 0 && local_value < 6) {\n            enabled_bitset[local_value / 64] |= (static_cast<uint64_t>(1) << (local_value % 64));\n            some_mutation_enabled = true;\n          }\n        }\n        if (pos == std::string::npos) {\n          break;\n        }\n        contents.erase(0, pos + 1);\n      }\n    }\n    initialized = true;\n    __dredd_some_mutation_enabled = some_mutation_enabled;\n  }\n  return (enabled_bitset[local_mutation_id / 64] & (static_cast<uint64_t>(1) << (local_mutation_id % 64))) != 0;\n}\n\nstatic int __dredd_replace_expr_int(int arg, int local_mutation_id) {\n  if (!__dredd_some_mutation_enabled) return arg;\n  if (__dredd_enabled_mutation(local_mutation_id + 0)) return !(arg);\n  if (__dredd_enabled_mutation(local_mutation_id + 1)) return ~(arg);\n  if (__dredd_enabled_mutation(local_mutation_id + 2)) return -(arg);\n  if (__dredd_enabled_mutation(local_mutation_id + 3)) return 0;\n  if (__dredd_enabled_mutation(local_mutation_id + 4)) return 1;\n  if (__dredd_enabled_mutation(local_mutation_id + 5)) return -1;\n  return arg;\n}\n\nvoid foo() {\n  const int a = __dredd_replace_expr_int(4, 0);\n  constexpr char b[4]{};\n}\n" }

#guard constexpr_array_cc.ok

/-- test/single_file/constexpr_if2.cc -/
def constexpr_if2_cc : Case :=
  let src : Text := t!"int main() {\n  if constexpr (1 == 2) {\n    return 42;\n  }\n}\n"
  { name := "constexpr_if2.cc", lang := cpp, src := src, ast :=
    .decl ⟨.tu, none⟩ [
     .decl ⟨.func false none, (some ⟨0, 59⟩)⟩ [
      st src .compound .plain (some ⟨11, 59⟩) [
       st src (.if_ true) .plain (some ⟨15, 57⟩) [
        ex src (.binary .eq) (some .bool) .ifCond 29 (some ⟨29, 35⟩) (fun f => { f with intVal := some 0, boolVal := some false, cxx11Const := true, opOff := some 31 }) [
         ex src .other (some .int) .lhs 29 (some ⟨29, 30⟩) (fun f => { f with intVal := some 1, boolVal := some true, cxx11Const := true }) [],
         ex src .other (some .int) .rhs 34 (some ⟨34, 35⟩) (fun f => { f with intVal := some 2, boolVal := some true, cxx11Const := true }) []],
        st src .compound .plain (some ⟨37, 57⟩) [
         st src .other .plain (some ⟨43, 52⟩) [
          ex src .other (some .int) .plain 50 (some ⟨50, 52⟩) (fun f => { f with intVal := some 42, boolVal := some true, cxx11Const := true }) []]]]]]]
    expected := "// DREDD PRELUDE START\n// If this has been inserted at an inappropriate place in a source file,\n// declare a placeholder function with the following signature to\n// mandate where the prelude should be placed:\n//\n// void __dredd_prelude_start();\n//\n#include <atomic>\n#include <cinttypes>\n#include <cstddef>\n#include <fstream>\n#include <functional>\n#include <sstream>\n#include <string>\n\n\n#ifdef _MSC_VER\n#define thread_local __declspec(thread)\n#elif __APPLE__\n#define thread_local __thread\n#endif\n\nstatic thread_local bool __dredd_some_mutation_enabled = true;\nstatic bool __dredd_enabled_mutation(int local_mutation_id) {\n  static thread_local bool initialized = false;\n  static thread_local uint64_t enabled_bitset[1];\n  if (!initialized) {\n    bool some_mutation_enabled = false;\n    const char* dredd_environment_variable = std::getenv(\"DREDD_ENABLED_MUTATION\");\n    if (dredd_environment_variable != nullptr) {\n      std::string contents(dredd_environment_variable);\n      while (true) {\n        size_t pos = contents.find(\",\");\n        std::string token = (pos == std::string::npos ? contents : contents.substr(0, pos));\n        if (!token.empty()) {\n          int value = std::stoi(token);\n          int local_value = value - 0;\n          if (local_value >= 0 && local_value < 7) {\n            enabled_bitset[local_value / 64] |= (static_cast<uint64_t>(1) << (local_value % 64));\n            some_mutation_enabled = true;\n          }\n        }\n        if (pos == std::string::npos) {\n          break;\n        }\n        contents.erase(0, pos + 1);\n      }\n    }\n    initialized = true;\n    __dredd_some_mutation_enabled = some_mutation_enabled;\n  }\n  return (enabled_bitset[local_mutation_id / 64] & (static_cast<uint64_t>(1) << (local_mutation_id % 64))) != 0;\n}\n\nstatic int __dredd_replace_expr_int_constant(int arg, int local_mutation_id) {\n  if (!__dredd_some_mutation_enabled) return arg;\n  if (__dredd_enabled_mutation(local_mutation_id + 0)) return ~(arg);\n  if (__dredd_enabled_mutation(local_mutation_id + 1)) return -(arg);\n  if (__dredd_enabled_mutation(local_mutation_id + 2)) return 0;\n  if (__dredd_enabled_mutation(local_mutation_id + 3)) return 1;\n  if (__dredd_enabled_mutation(local_mutation_id + 4)) return -1;\n  return arg;\n}\n\nint main() {\n  if (!__dredd_enabled_mutation(6)) { if constexpr (1 == 2) {\n    if (!__dredd_enabled_mutation(5)) { return __dredd_replace_expr_int_constant(42, 0); }\n  } }\n}\n"
    noopt := "// DREDD PRELUDE START\n// If this has been inserted at an inappropriate place in a source file,\n// declare a placeholder function with the following signature to\n// mandate where the prelude should be placed:\n//\n// void __dredd_prelude_start();\n//\n#include <atomic>\n#include <cinttypes>\n#include <cstddef>\n#include <fstream>\n#include <functional>\n#include <sstream>\n#include <string>\n\n\n#ifdef _MSC_VER\n#define thread_local __declspec(thread)\n#elif __APPLE__\n#define thread_local __thread\n#endif\n\nstatic thread_local bool __dredd_some_mutation_enabled = true;\nstatic bool __dredd_enabled_mutation(int local_mutation_id) {\n  static thread_local bool initialized = false;\n  static thread_local uint64_t enabled_bitset[1];\n  if (!initialized) {\n    bool some_mutation_enabled = false;\n    const char* dredd_environment_variable = std::getenv(\"DREDD_ENABLED_MUTATION\");\n    if (dredd_environment_variable != nullptr) {\n      std::string contents(dredd_environment_variable);\n      while (true) {\n        size_t pos = contents.find(\",\");\n        std::string token = (pos == std::string::npos ? contents : contents.substr(0, pos));\n        if (!token.empty()) {\n          int value = std::stoi(token);\n          int local_value = value - 0;\n          if (local_value >= 0 && local_value < 8) {\n            enabled_bitset[local_value / 64] |= (static_cast<uint64_t>(1) << (local_value % 64));\n            some_mutation_enabled = true;\n          }\n        }\n        if (pos == std::string::npos) {\n          break;\n        }\n        contents.erase(0, pos + 1);\n      }\n    }\n    initialized = true;\n    __dredd_some_mutation_enabled = some_mutation_enabled;\n  }\n  return (enabled_bitset[local_mutation_id / 64] & (static_cast<uint64_t>(1) << (local_mutation_id % 64))) != 0;\n}\n\nstatic int __dredd_replace_expr_int(int arg, int local_mutation_id) {\n  if (!__dredd_some_mutation_enabled) return arg;\n  if (__dredd_enabled_mutation(local_mutation_id + 0)) return !(arg);\n  if (__dredd_enabled_mutation(local_mutation_id + 1)) return ~(arg);\n  if (__dredd_enabled_mutation(local_mutation_id + 2)) return -(arg);\n  if (__dredd_enabled_mutation(local_mutation_id + 3)) return 0;\n  if (__dredd_enabled_mutation(local_mutation_id + 4)) return 1;\n  if (__dredd_enabled_mutation(local_mutation_id + 5)) return -1;\n  return arg;\n}\n\nint main() {\n  if (!__dredd_enabled_mutation(7)) { if constexpr (1 == 2) {\n    if (!__dredd_enabled_mutation(6)) { return __dredd_replace_expr_int(42, 0); }\n  } }\n}\n" }

#guard constexpr_if2_cc.ok

/-- test/single_file/constexpr_initializer.cc -/
def constexpr_initializer_cc : Case :=
  let src : Text := t!"void foo() {\n  constexpr int a = 1 + 2;\n  constexpr int b = a + a;\n}\n"
  { name := "constexpr_initializer.cc", lang := cpp, src := src, ast :=
    .decl ⟨.tu, none⟩ [
     .decl ⟨.func false none, (some ⟨0, 68⟩)⟩ [
      st src .compound .plain (some ⟨11, 68⟩) [
       st src .declStmt .plain (some ⟨15, 39⟩) [
        .decl ⟨.var ⟨29, false, [], [], true, false, false⟩, (some ⟨15, 38⟩)⟩ [
         ex src (.binary .add) (some .int) .plain 33 (some ⟨33, 38⟩) (fun f => { f with intVal := some 3, boolVal := some true, cxx11Const := true, opOff := some 35 }) [
          ex src .other (some .int) .lhs 33 (some ⟨33, 34⟩) (fun f => { f with intVal := some 1, boolVal := some true, cxx11Const := true }) [],
          ex src .other (some .int) .rhs 37 (some ⟨37, 38⟩) (fun f => { f with intVal := some 2, boolVal := some true, cxx11Const := true }) []]]],
       st src .declStmt .plain (some ⟨42, 66⟩) [
        .decl ⟨.var ⟨56, false, [], [], true, false, false⟩, (some ⟨42, 65⟩)⟩ [
         ex src (.binary .add) (some .int) .plain 60 (some ⟨60, 65⟩) (fun f => { f with intVal := some 6, boolVal := some true, cxx11Const := true, opOff := some 62 }) [
          ex src (.cast true false) (some .int) .lhs 60 (some ⟨60, 61⟩) (fun f => { f with intVal := some 3, boolVal := some true, cxx11Const := true }) [
           ex src .other (some .int) .operand 60 (some ⟨60, 61⟩) (fun f => { f with lvalue := true, const := true, intVal := some 3, boolVal := some true, cxx11Const := true }) []],
          ex src (.cast true false) (some .int) .rhs 64 (some ⟨64, 65⟩) (fun f => { f with intVal := some 3, boolVal := some true, cxx11Const := true }) [
           ex src .other (some .int) .operand 64 (some ⟨64, 65⟩) (fun f => { f with lvalue := true, const := true, intVal := some 3, boolVal := some true, cxx11Const := true }) []]]]]]]]
    expected := "void foo() {\n  constexpr int a = 1 + 2;\n  constexpr int b = a + a;\n}\n"
    noopt := "void foo() {\n  constexpr int a = 1 + 2;\n  constexpr int b = a + a;\n}\n" }

#guard constexpr_initializer_cc.ok

/-- test/single_file/define_at_start_of_file.c -/
def define_at_start_of_file_c : Case :=
  let src : Text := t!"#define API\nAPI int func1();\n\nint main() { int a = 1; }\n"
  { name := "define_at_start_of_file.c", lang := c, src := src, ast :=
    .decl ⟨.tu, none⟩ [
     .decl ⟨.func false none, (some ⟨16, 27⟩)⟩ [],
     .decl ⟨.func false none, (some ⟨30, 55⟩)⟩ [
      st src .compound .plain (some ⟨41, 55⟩) [
       st src .declStmt .plain (some ⟨43, 53⟩) [
        .decl ⟨.var ⟨47, false, [], [], false, false, false⟩, (some ⟨43, 52⟩)⟩ [
         ex src .other (some .int) .plain 51 (some ⟨51, 52⟩) (fun f => { f with intVal := some 1, boolVal := some true }) []]]]]]
    expected := "// DREDD PRELUDE START\n// If this has been inserted at an inappropriate place in a source file,\n// declare a placeholder function with the following signature to\n// mandate where the prelude should be placed:\n//\n// void __dredd_prelude_start();\n//\n#include <inttypes.h>\n#include <stdatomic.h>\n#include <stdbool.h>\n#include <stdio.h>\n#include <stdlib.h>\n#include <string.h>\n\n#ifdef _MSC_VER\n#define thread_local __declspec(thread)\n#elif __APPLE__\n#define thread_local __thread\n#else\n#include <threads.h>\n#endif\n\nstatic thread_local int __dredd_some_mutation_enabled = 1;\nstatic bool __dredd_enabled_mutation(int local_mutation_id) {\n  static thread_local int initialized = 0;\n  static thread_local uint64_t enabled_bitset[1];\n  if (!initialized) {\n    int some_mutation_enabled = 0;\n    const char* dredd_environment_variable = getenv(\"DREDD_ENABLED_MUTATION\");\n    if (dredd_environment_variable) {\n      char* temp = malloc(strlen(dredd_environment_variable) + 1);\n      strcpy(temp, dredd_environment_variable);\n      char* token;\n      token = strtok(temp, \",\");\n      while(token) {\n        int value = atoi(token);\n        int local_value = value - 0;\n        if (local_value >= 0 && local_value < 3) {\n          enabled_bitset[local_value / 64] |= ((uint64_t) 1 << (local_value % 64));\n          some_mutation_enabled = 1;\n        }\n        token = strtok(NULL, \",\");\n      }\n      free(temp);\n    }\n    initialized = 1;\n    __dredd_some_mutation_enabled = some_mutation_enabled;\n  }\n  return enabled_bitset[local_mutation_id / 64] & ((uint64_t) 1 << (local_mutation_id % 64));\n}\n\nstatic int __dredd_replace_expr_int_one(int arg, int local_mutation_id) {\n  if (!__dredd_some_mutation_enabled) return arg;\n  if (__dredd_enabled_mutation(local_mutation_id + 0)) return ~(arg);\n  if (__dredd_enabled_mutation(local_mutation_id + 1)) return 0;\n  if (__dredd_enabled_mutation(local_mutation_id + 2)) return -1;\n  return arg;\n}\n\n#define API\nAPI int func1();\n\nint main() { int a = __dredd_replace_expr_int_one(1, 0); }\n"
    noopt := "// DREDD PRELUDE START\n// If this has been inserted at an inappropriate place in a source file,\n// declare a placeholder function with the following signature to\n// mandate where the prelude should be placed:\n//\n// void __dredd_prelude_start();\n//\n#include <inttypes.h>\n#include <stdatomic.h>\n#include <stdbool.h>\n#include <stdio.h>\n#include <stdlib.h>\n#include <string.h>\n\n#ifdef _MSC_VER\n#define thread_local __declspec(thread)\n#elif __APPLE__\n#define thread_local __thread\n#else\n#include <threads.h>\n#endif\n\nstatic thread_local int __dredd_some_mutation_enabled = 1;\nstatic bool __dredd_enabled_mutation(int local_mutation_id) {\n  static thread_local int initialized = 0;\n  static thread_local uint64_t enabled_bitset[1];\n  if (!initialized) {\n    int some_mutation_enabled = 0;\n    const char* dredd_environment_variable = getenv(\"DREDD_ENABLED_MUTATION\");\n    if (dredd_environment_variable) {\n      char* temp = malloc(strlen(dredd_environment_variable) + 1);\n      strcpy(temp, dredd_environment_variable);\n      char* token;\n      token = strtok(temp, \",\");\n      while(token) {\n        int value = atoi(token);\n        int local_value = value - 0;\n        if (local_value >= 0 && local_value < 6) {\n          enabled_bitset[local_value / 64] |= ((uint64_t) 1 << (local_value % 64));\n          some_mutation_enabled = 1;\n        }\n        token = strtok(NULL, \",\");\n      }\n      free(temp);\n    }\n    initialized = 1;\n    __dredd_some_mutation_enabled = some_mutation_enabled;\n  }\n  return enabled_bitset[local_mutation_id / 64] & ((uint64_t) 1 << (local_mutation_id % 64));\n}\n\nstatic int __dredd_replace_expr_int(int arg, int local_mutation_id) {\n  if (!__dredd_some_mutation_enabled) return arg;\n  if (__dredd_enabled_mutation(local_mutation_id + 0)) return !(arg);\n  if (__dredd_enabled_mutation(local_mutation_id + 1)) return ~(arg);\n  if (__dredd_enabled_mutation(local_mutation_id + 2)) return -(arg);\n  if (__dredd_enabled_mutation(local_mutation_id + 3)) return 0;\n  if (__dredd_enabled_mutation(local_mutation_id + 4)) return 1;\n  if (__dredd_enabled_mutation(local_mutation_id + 5)) return -1;\n  return arg;\n}\n\n#define API\nAPI int func1();\n\nint main() { int a = __dredd_replace_expr_int(1, 0); }\n" }

#guard define_at_start_of_file_c.ok

/-- test/single_file/define_in_first_decl.c -/
def define_in_first_decl_c : Case :=
  let src : Text := t!"#define TYPE int\n\nTYPE foo() {\n  return 1 + 2;\n}\n"
  { name := "define_in_first_decl.c", lang := c, src := src, ast :=
    .decl ⟨.tu, none⟩ [
     .decl ⟨.func false none, (some ⟨18, 48⟩)⟩ [
      st src .compound .plain (some ⟨29, 48⟩) [
       st src .other .plain (some ⟨33, 45⟩) [
        ex src (.binary .add) (some .int) .plain 40 (some ⟨40, 45⟩) (fun f => { f with intVal := some 3, boolVal := some true, opOff := some 42 }) [
         ex src .other (some .int) .lhs 40 (some ⟨40, 41⟩) (fun f => { f with intVal := some 1, boolVal := some true }) [],
         ex src .other (some .int) .rhs 44 (some ⟨44, 45⟩) (fun f => { f with intVal := some 2, boolVal := some true }) []]]]]]
    expected := "// DREDD PRELUDE START\n// If this has been inserted at an inappropriate place in a source file,\n// declare a placeholder function with the following signature to\n// mandate where the prelude should be placed:\n//\n// void __dredd_prelude_start();\n//\n#include <inttypes.h>\n#include <stdatomic.h>\n#include <stdbool.h>\n#include <stdio.h>\n#include <stdlib.h>\n#include <string.h>\n\n#ifdef _MSC_VER\n#define thread_local __declspec(thread)\n#elif __APPLE__\n#define thread_local __thread\n#else\n#include <threads.h>\n#endif\n\nstatic thread_local int __dredd_some_mutation_enabled = 1;\nstatic bool __dredd_enabled_mutation(int local_mutation_id) {\n  static thread_local int initialized = 0;\n  static thread_local uint64_t enabled_bitset[1];\n  if (!initialized) {\n    int some_mutation_enabled = 0;\n    const char* dredd_environment_variable = getenv(\"DREDD_ENABLED_MUTATION\");\n    if (dredd_environment_variable) {\n      char* temp = malloc(strlen(dredd_environment_variable) + 1);\n      strcpy(temp, dredd_environment_variable);\n      char* token;\n      token = strtok(temp, \",\");\n      while(token) {\n        int value = atoi(token);\n        int local_value = value - 0;\n        if (local_value >= 0 && local_value < 18) {\n          enabled_bitset[local_value / 64] |= ((uint64_t) 1 << (local_value % 64));\n          some_mutation_enabled = 1;\n        }\n        token = strtok(NULL, \",\");\n      }\n      free(temp);\n    }\n    initialized = 1;\n    __dredd_some_mutation_enabled = some_mutation_enabled;\n  }\n  return enabled_bitset[local_mutation_id / 64] & ((uint64_t) 1 << (local_mutation_id % 64));\n}\n\nstatic int __dredd_replace_expr_int_one(int arg, int local_mutation_id) {\n  if (!__dredd_some_mutation_enabled) return arg;\n  if (__dredd_enabled_mutation(local_mutation_id + 0)) return ~(arg);\n  if (__dredd_enabled_mutation(local_mutation_id + 1)) return 0;\n  if (__dredd_enabled_mutation(local_mutation_id + 2)) return -1;\n  return arg;\n}\n\nstatic int __dredd_replace_expr_int_constant(int arg, int local_mutation_id) {\n  if (!__dredd_some_mutation_enabled) return arg;\n  if (__dredd_enabled_mutation(local_mutation_id + 0)) return ~(arg);\n  if (__dredd_enabled_mutation(local_mutation_id + 1)) return -(arg);\n  if (__dredd_enabled_mutation(local_mutation_id + 2)) return 0;\n  if (__dredd_enabled_mutation(local_mutation_id + 3)) return 1;\n  if (__dredd_enabled_mutation(local_mutation_id + 4)) return -1;\n  return arg;\n}\n\nstatic int __dredd_replace_binary_operator_Add_arg1_int_arg2_int_lhs_one(int arg1, int arg2, int local_mutation_id) {\n  if (!__dredd_some_mutation_enabled) return arg1 + arg2;\n  if (__dredd_enabled_mutation(local_mutation_id + 0)) return arg1 / arg2;\n  if (__dredd_enabled_mutation(local_mutation_id + 1)) return arg1 % arg2;\n  if (__dredd_enabled_mutation(local_mutation_id + 2)) return arg1 - arg2;\n  if (__dredd_enabled_mutation(local_mutation_id + 3)) return arg2;\n  return arg1 + arg2;\n}\n\n#define TYPE int\n\nTYPE foo() {\n  if (!__dredd_enabled_mutation(17)) { return __dredd_replace_expr_int_constant(__dredd_replace_binary_operator_Add_arg1_int_arg2_int_lhs_one(__dredd_replace_expr_int_one(1, 0) , __dredd_replace_expr_int_constant(2, 3), 8), 12); }\n}\n"
    noopt := "// DREDD PRELUDE START\n// If this has been inserted at an inappropriate place in a source file,\n// declare a placeholder function with the following signature to\n// mandate where the prelude should be placed:\n//\n// void __dredd_prelude_start();\n//\n#include <inttypes.h>\n#include <stdatomic.h>\n#include <stdbool.h>\n#include <stdio.h>\n#include <stdlib.h>\n#include <string.h>\n\n#ifdef _MSC_VER\n#define thread_local __declspec(thread)\n#elif __APPLE__\n#define thread_local __thread\n#else\n#include <threads.h>\n#endif\n\nstatic thread_local int __dredd_some_mutation_enabled = 1;\nstatic bool __dredd_enabled_mutation(int local_mutation_id) {\n  static thread_local int initialized = 0;\n  static thread_local uint64_t enabled_bitset[1];\n  if (!initialized) {\n    int some_mutation_enabled = 0;\n    const char* dredd_environment_variable = getenv(\"DREDD_ENABLED_MUTATION\");\n    if (dredd_environment_variable) {\n      char* temp = malloc(strlen(dredd_environment_variable) + 1);\n      strcpy(temp, dredd_environment_variable);\n      char* token;\n      token = strtok(temp, \",\");\n      while(token) {\n        int value = atoi(token);\n        int local_value = value - 0;\n        if (local_value >= 0 && local_value < 25) {\n          enabled_bitset[local_value / 64] |= ((uint64_t) 1 << (local_value % 64));\n          some_mutation_enabled = 1;\n        }\n        token = strtok(NULL, \",\");\n      }\n      free(temp);\n    }\n    initialized = 1;\n    __dredd_some_mutation_enabled = some_mutation_enabled;\n  }\n  return enabled_bitset[local_mutation_id / 64] & ((uint64_t) 1 << (local_mutation_id % 64));\n}\n\nstatic int __dredd_replace_expr_int(int arg, int local_mutation_id) {\n  if (!__dredd_some_mutation_enabled) return arg;\n  if (__dredd_enabled_mutation(local_mutation_id + 0)) return !(arg);\n  if (__dredd_enabled_mutation(local_mutation_id + 1)) return ~(arg);\n  if (__dredd_enabled_mutation(local_mutation_id + 2)) return -(arg);\n  if (__dredd_enabled_mutation(local_mutation_id + 3)) return 0;\n  if (__dredd_enabled_mutation(local_mutation_id + 4)) return 1;\n  if (__dredd_enabled_mutation(local_mutation_id + 5)) return -1;\n  return arg;\n}\n\nstatic int __dredd_replace_binary_operator_Add_arg1_int_arg2_int(int arg1, int arg2, int local_mutation_id) {\n  if (!__dredd_some_mutation_enabled) return arg1 + arg2;\n  if (__dredd_enabled_mutation(local_mutation_id + 0)) return arg1 / arg2;\n  if (__dredd_enabled_mutation(local_mutation_id + 1)) return arg1 * arg2;\n  if (__dredd_enabled_mutation(local_mutation_id + 2)) return arg1 % arg2;\n  if (__dredd_enabled_mutation(local_mutation_id + 3)) return arg1 - arg2;\n  if (__dredd_enabled_mutation(local_mutation_id + 4)) return arg1;\n  if (__dredd_enabled_mutation(local_mutation_id + 5)) return arg2;\n  return arg1 + arg2;\n}\n\n#define TYPE int\n\nTYPE foo() {\n  if (!__dredd_enabled_mutation(24)) { return __dredd_replace_expr_int(__dredd_replace_binary_operator_Add_arg1_int_arg2_int(__dredd_replace_expr_int(1, 0) , __dredd_replace_expr_int(2, 6), 12), 18); }\n}\n" }

#guard define_in_first_decl_c.ok

/-- test/single_file/define_in_first_decl.cc -/
def define_in_first_decl_cc : Case :=
  let src : Text := t!"#define TYPE int\n\nTYPE foo() {\n  return 1 + 2;\n}\n"
  { name := "define_in_first_decl.cc", lang := cpp, src := src, ast :=
    .decl ⟨.tu, none⟩ [
     .decl ⟨.func false none, (some ⟨18, 48⟩)⟩ [
      st src .compound .plain (some ⟨29, 48⟩) [
       st src .other .plain (some ⟨33, 45⟩) [
        ex src (.binary .add) (some .int) .plain 40 (some ⟨40, 45⟩) (fun f => { f with intVal := some 3, boolVal := some true, cxx11Const := true, opOff := some 42 }) [
         ex src .other (some .int) .lhs 40 (some ⟨40, 41⟩) (fun f => { f with intVal := some 1, boolVal := some true, cxx11Const := true }) [],
         ex src .other (some .int) .rhs 44 (some ⟨44, 45⟩) (fun f => { f with intVal := some 2, boolVal := some true, cxx11Const := true }) []]]]]]
    expected := "// DREDD PRELUDE START\n// If this has been inserted at an inappropriate place in a source file,\n// declare a placeholder function with the following signature to\n// mandate where the prelude should be placed:\n//\n// void __dredd_prelude_start();\n//\n#include <atomic>\n#include <cinttypes>\n#include <cstddef>\n#include <fstream>\n#include <functional>\n#include <sstream>\n#include <string>\n\n\n#ifdef _MSC_VER\n#define thread_local __declspec(thread)\n#elif __APPLE__\n#define thread_local __thread\n#endif\n\nstatic thread_local bool __dredd_some_mutation_enabled = true;\nstatic bool __dredd_enabled_mutation(int local_mutation_id) {\n  static thread_local bool initialized = false;\n  static thread_local uint64_t enabled_bitset[1];\n  if (!initialized) {\n    bool some_mutation_enabled = false;\n    const char* dredd_environment_variable = std::getenv(\"DREDD_ENABLED_MUTATION\");\n    if (dredd_environment_variable != nullptr) {\n      std::string contents(dredd_environment_variable);\n      while (true) {\n        size_t pos = contents.find(\",\");\n        std::string token = (pos == std::string::npos ? contents : contents.substr(0, pos));\n        if (!token.empty()) {\n          int value = std::stoi(token);\n          int local_value = value - 0;\n          if (local_value >= 0 && local_value < 18) {\n            enabled_bitset[local_value / 64] |= (static_cast<uint64_t>(1) << (local_value % 64));\n            some_mutation_enabled = true;\n          }\n        }\n        if (pos == std::string::npos) {\n          break;\n        }\n        contents.erase(0, pos + 1);\n      }\n    }\n    initialized = true;\n    __dredd_some_mutation_enabled = some_mutation_enabled;\n  }\n  return (enabled_bitset[local_mutation_id / 64] & (static_cast<uint64_t>(1) << (local_mutation_id % 64))) != 0;\n}\n\nstatic int __dredd_replace_expr_int_one(int arg, int local_mutation_id) {\n  if (!__dredd_some_mutation_enabled) return arg;\n  if (__dredd_enabled_mutation(local_mutation_id + 0)) return ~(arg);\n  if (__dredd_enabled_mutation(local_mutation_id + 1)) return 0;\n  if (__dredd_enabled_mutation(local_mutation_id + 2)) return -1;\n  return arg;\n}\n\nstatic int __dredd_replace_expr_int_constant(int arg, int local_mutation_id) {\n  if (!__dredd_some_mutation_enabled) return arg;\n  if (__dredd_enabled_mutation(local_mutation_id + 0)) return ~(arg);\n  if (__dredd_enabled_mutation(local_mutation_id + 1)) return -(arg);\n  if (__dredd_enabled_mutation(local_mutation_id + 2)) return 0;\n  if (__dredd_enabled_mutation(local_mutation_id + 3)) return 1;\n  if (__dredd_enabled_mutation(local_mutation_id + 4)) return -1;\n  return arg;\n}\n\nstatic int __dredd_replace_binary_operator_Add_arg1_int_arg2_int_lhs_one(int arg1, int arg2, int local_mutation_id) {\n  if (!__dredd_some_mutation_enabled) return arg1 + arg2;\n  if (__dredd_enabled_mutation(local_mutation_id + 0)) return arg1 / arg2;\n  if (__dredd_enabled_mutation(local_mutation_id + 1)) return arg1 % arg2;\n  if (__dredd_enabled_mutation(local_mutation_id + 2)) return arg1 - arg2;\n  if (__dredd_enabled_mutation(local_mutation_id + 3)) return arg2;\n  return arg1 + arg2;\n}\n\n#define TYPE int\n\nTYPE foo() {\n  if (!__dredd_enabled_mutation(17)) { return __dredd_replace_expr_int_constant(__dredd_replace_binary_operator_Add_arg1_int_arg2_int_lhs_one(__dredd_replace_expr_int_one(1, 0) , __dredd_replace_expr_int_constant(2, 3), 8), 12); }\n}\n"
    noopt := "// DREDD PRELUDE START\n// If this has been inserted at an inappropriate place in a source file,\n// declare a placeholder function with the following signature to\n// mandate where the prelude should be placed:\n//\n// void __dredd_prelude_start();\n//\n#include <atomic>\n#include <cinttypes>\n#include <cstddef>\n#include <fstream>\n#include <functional>\n#include <sstream>\n#include <string>\n\n\n#ifdef _MSC_VER\n#define thread_local __declspec(thread)\n#elif __APPLE__\n#define thread_local __thread\n#endif\n\nstatic thread_local bool __dredd_some_mutation_enabled = true;\nstatic bool __dredd_enabled_mutation(int local_mutation_id) {\n  static thread_local bool initialized = false;\n  static thread_local uint64_t enabled_bitset[1];\n  if (!initialized) {\n    bool some_mutation_enabled = false;\n    const char* dredd_environment_variable = std::getenv(\"DREDD_ENABLED_MUTATION\");\n    if (dredd_environment_variable != nullptr) {\n      std::string contents(dredd_environment_variable);\n      while (true) {\n        size_t pos = contents.find(\",\");\n        std::string token = (pos == std::string::npos ? contents : contents.substr(0, pos));\n        if (!token.empty()) {\n          int value = std::stoi(token);\n          int local_value = value - 0;\n          if (local_value >= 0 && local_value < 25) {\n            enabled_bitset[local_value / 64] |= (static_cast<uint64_t>(1) << (local_value % 64));\n            some_mutation_enabled = true;\n          }\n        }\n        if (pos == std::string::npos) {\n          break;\n        }\n        contents.erase(0, pos + 1);\n      }\n    }\n    initialized = true;\n    __dredd_some_mutation_enabled = some_mutation_enabled;\n  }\n  return (enabled_bitset[local_mutation_id / 64] & (static_cast<uint64_t>(1) << (local_mutation_id % 64))) != 0;\n}\n\nstatic int __dredd_replace_expr_int(int arg, int local_mutation_id) {\n  if (!__dredd_some_mutation_enabled) return arg;\n  if (__dredd_enabled_mutation(local_mutation_id + 0)) return !(arg);\n  if (__dredd_enabled_mutation(local_mutation_id + 1)) return ~(arg);\n  if (__dredd_enabled_mutation(local_mutation_id + 2)) return -(arg);\n  if (__dredd_enabled_mutation(local_mutation_id + 3)) return 0;\n  if (__dredd_enabled_mutation(local_mutation_id + 4)) return 1;\n  if (__dredd_enabled_mutation(local_mutation_id + 5)) return -1;\n  return arg;\n}\n\nstatic int __dredd_replace_binary_operator_Add_arg1_int_arg2_int(int arg1, int arg2, int local_mutation_id) {\n  if (!__dredd_some_mutation_enabled) return arg1 + arg2;\n  if (__dredd_enabled_mutation(local_mutation_id + 0)) return arg1 / arg2;\n  if (__dredd_enabled_mutation(local_mutation_id + 1)) return arg1 * arg2;\n  if (__dredd_enabled_mutation(local_mutation_id + 2)) return arg1 % arg2;\n  if (__dredd_enabled_mutation(local_mutation_id + 3)) return arg1 - arg2;\n  if (__dredd_enabled_mutation(local_mutation_id + 4)) return arg1;\n  if (__dredd_enabled_mutation(local_mutation_id + 5)) return arg2;\n  return arg1 + arg2;\n}\n\n#define TYPE int\n\nTYPE foo() {\n  if (!__dredd_enabled_mutation(24)) { return __dredd_replace_expr_int(__dredd_replace_binary_operator_Add_arg1_int_arg2_int(__dredd_replace_expr_int(1, 0) , __dredd_replace_expr_int(2, 6), 12), 18); }\n}\n" }

#guard define_in_first_decl_cc.ok

/-- test/single_file/dredd_prelude_start.cc -/
def dredd_prelude_start_cc : Case :=
  let src : Text := t!"class foo {\npublic:\n  virtual void bar() = 0;\n};\n\nclass a : foo {\n  void bar() override;\n};\n\nvoid __dredd_prelude_start();\n\nvoid a::bar() {\n  int x = 2;\n}\n"
  { name := "dredd_prelude_start.cc", lang := cpp, src := src, ast :=
    .decl ⟨.tu, none⟩ [
     .decl ⟨.other, (some ⟨0, 47⟩)⟩ [
      .decl ⟨.func false none, (some ⟨22, 44⟩)⟩ []],
     .decl ⟨.other, (some ⟨50, 90⟩)⟩ [
      .decl ⟨.func false none, (some ⟨68, 87⟩)⟩ []],
     .decl ⟨.func false (some 93), (some ⟨93, 121⟩)⟩ [],
     .decl ⟨.func false none, (some ⟨124, 154⟩)⟩ [
      st src .compound .plain (some ⟨138, 154⟩) [
       st src .declStmt .plain (some ⟨142, 152⟩) [
        .decl ⟨.var ⟨146, false, [], [], false, false, false⟩, (some ⟨142, 151⟩)⟩ [
         ex src .other (some .int) .plain 150 (some ⟨150, 151⟩) (fun f => { f with intVal := some 2, boolVal := some true, cxx11Const := true }) []]]]]]
    expected := "class foo {\npublic:\n  virtual void bar() = 0;\n};\n\nclass a : foo {\n  void bar() override;\n};\n\n// DREDD PRELUDE START\n// If this has been inserted at an inappropriate place in a source file,\n// declare a placeholder function with the following signature to\n// mandate where the prelude should be placed:\n//\n// void __dredd_prelude_start();\n//\n#include <atomic>\n#include <cinttypes>\n#include <cstddef>\n#include <fstream>\n#include <functional>\n#include <sstream>\n#include <string>\n\n\n#ifdef _MSC_VER\n#define thread_local __declspec(thread)\n#elif __APPLE__\n#define thread_local __thread\n#endif\n\nstatic thread_local bool __dredd_some_mutation_enabled = true;\nstatic bool __dredd_enabled_mutation(int local_mutation_id) {\n  static thread_local bool initialized = false;\n  static thread_local uint64_t enabled_bitset[1];\n  if (!initialized) {\n    bool some_mutation_enabled = false;\n    const char* dredd_environment_variable = std::getenv(\"DREDD_ENABLED_MUTATION\");\n    if (dredd_environment_variable != nullptr) {\n      std::string contents(dredd_environment_variable);\n      while (true) {\n        size_t pos = contents.find(\",\");\n        std::string token = (pos == std::string::npos ? contents : contents.substr(0, pos));\n        if (!token.empty()) {\n          int value = std::stoi(token);\n          int local_value = value - 0;\n          if (local_value >= 0 && local_value < 5) {\n            enabled_bitset[local_value / 64] |= (static_cast<uint64_t>(1) << (local_value % 64));\n            some_mutation_enabled = true;\n          }\n        }\n        if (pos == std::string::npos) {\n          break;\n        }\n        contents.erase(0, pos + 1);\n      }\n    }\n    initialized = true;\n    __dredd_some_mutation_enabled = some_mutation_enabled;\n  }\n  return (enabled_bitset[local_mutation_id / 64] & (static_cast<uint64_t>(1) << (local_mutation_id % 64))) != 0;\n}\n\nstatic int __dredd_replace_expr_int_constant(int arg, int local_mutation_id) {\n  if (!__dredd_some_mutation_enabled) return arg;\n  if (__dredd_enabled_mutation(local_mutation_id + 0)) return ~(arg);\n  if (__dredd_enabled_mutation(local_mutation_id + 1)) return -(arg);\n  if (__dredd_enabled_mutation(local_mutation_id + 2)) return 0;\n  if (__dredd_enabled_mutation(local_mutation_id + 3)) return 1;\n  if (__dredd_enabled_mutation(local_mutation_id + 4)) return -1;\n  return arg;\n}\n\nvoid __dredd_prelude_start();\n\nvoid a::bar() {\n  int x = __dredd_replace_expr_int_constant(2, 0);\n}\n"
    noopt := "class foo {\npublic:\n  virtual void bar() = 0;\n};\n\nclass a : foo {\n  void bar() override;\n};\n\n// DREDD PRELUDE START\n// If this has been inserted at an inappropriate place in a source file,\n// declare a placeholder function with the following signature to\n// mandate where the prelude should be placed:\n//\n// void __dredd_prelude_start();\n//\n#include <atomic>\n#include <cinttypes>\n#include <cstddef>\n#include <fstream>\n#include <functional>\n#include <sstream>\n#include <string>\n\n\n#ifdef _MSC_VER\n#define thread_local __declspec(thread)\n#elif __APPLE__\n#define thread_local __thread\n#endif\n\nstatic thread_local bool __dredd_some_mutation_enabled = true;\nstatic bool __dredd_enabled_mutation(int local_mutation_id) {\n  static thread_local bool initialized = false;\n  static thread_local uint64_t enabled_bitset[1];\n  if (!initialized) {\n    bool some_mutation_enabled = false;\n    const char* dredd_environment_variable = std::getenv(\"DREDD_ENABLED_MUTATION\");\n    if (dredd_environment_variable != nullptr) {\n      std::string contents(dredd_environment_variable);\n      while (true) {\n        size_t pos = contents.find(\",\");\n        std::string token = (pos == std::string::npos ? contents : contents.substr(0, pos));\n        if (!token.empty()) {\n          int value = std::stoi(token);\n          int local_value = value - 0;\n          if (local_value >= 0 && local_value < 6) {\n            enabled_bitset[local_value / 64] |= (static_cast<uint64_t>(1) << (local_value % 64));\n            some_mutation_enabled = true;\n          }\n        }\n        if (pos == std::string::npos) {\n          break;\n        }\n        contents.erase(0, pos + 1);\n      }\n    }\n    initialized = true;\n    __dredd_some_mutation_enabled = some_mutation_enabled;\n  }\n  return (enabled_bitset[local_mutation_id / 64] & (static_cast<uint64_t>(1) << (local_mutation_id % 64))) != 0;\n}\n\nstatic int __dredd_replace_expr_int(int arg, int local_mutation_id) {\n  if (!__dredd_some_mutation_enabled) return arg;\n  if (__dredd_enabled_mutation(local_mutation_id + 0)) return !(arg);\n  if (__dredd_enabled_mutation(local_mutation_id + 1)) return ~(arg);\n  if (__dredd_enabled_mutation(local_mutation_id + 2)) return -(arg);\n  if (__dredd_enabled_mutation(local_mutation_id + 3)) return 0;\n  if (__dredd_enabled_mutation(local_mutation_id + 4)) return 1;\n  if (__dredd_enabled_mutation(local_mutation_id + 5)) return -1;\n  return arg;\n}\n\nvoid __dredd_prelude_start();\n\nvoid a::bar() {\n  int x = __dredd_replace_expr_int(2, 0);\n}\n" }

#guard dredd_prelude_start_cc.ok

/-- test/single_file/enum.c -/
def enum_c : Case :=
  let src : Text := t!"enum A {\n  X,\n  Y\n};\n\nvoid foo() {\n  enum A myA = X;\n}\n"
  { name := "enum.c", lang := c, src := src, ast :=
    .decl ⟨.tu, none⟩ [
     .decl ⟨.other, (some ⟨0, 19⟩)⟩ [
      .decl ⟨.other, (some ⟨11, 12⟩)⟩ [],
      .decl ⟨.other, (some ⟨16, 17⟩)⟩ []],
     .decl ⟨.func false none, (some ⟨22, 54⟩)⟩ [
      st src .compound .plain (some ⟨33, 54⟩) [
       st src .declStmt .plain (some ⟨37, 52⟩) [
        .decl ⟨.var ⟨44, false, [], [], false, false, false⟩, (some ⟨37, 51⟩)⟩ [
         ex src (.cast true false) none .plain 50 (some ⟨50, 51⟩) id [
          ex src .enumRef (some .int) .operand 50 (some ⟨50, 51⟩) (fun f => { f with intVal := some 0, boolVal := some false }) []]]]]]]
    expected := "enum A {\n  X,\n  Y\n};\n\nvoid foo() {\n  enum A myA = X;\n}\n"
    noopt := "// DREDD PRELUDE START\n// If this has been inserted at an inappropriate place in a source file,\n// declare a placeholder function with the following signature to\n// mandate where the prelude should be placed:\n//\n// void __dredd_prelude_start();\n//\n#include <inttypes.h>\n#include <stdatomic.h>\n#include <stdbool.h>\n#include <stdio.h>\n#include <stdlib.h>\n#include <string.h>\n\n#ifdef _MSC_VER\n#define thread_local __declspec(thread)\n#elif __APPLE__\n#define thread_local __thread\n#else\n#include <threads.h>\n#endif\n\nstatic thread_local int __dredd_some_mutation_enabled = 1;\nstatic bool __dredd_enabled_mutation(int local_mutation_id) {\n  static thread_local int initialized = 0;\n  static thread_local uint64_t enabled_bitset[1];\n  if (!initialized) {\n    int some_mutation_enabled = 0;\n    const char* dredd_environment_variable = getenv(\"DREDD_ENABLED_MUTATION\");\n    if (dredd_environment_variable) {\n      char* temp = malloc(strlen(dredd_environment_variable) + 1);\n      strcpy(temp, dredd_environment_variable);\n      char* token;\n      token = strtok(temp, \",\");\n      while(token) {\n        int value = atoi(token);\n        int local_value = value - 0;\n        if (local_value >= 0 && local_value < 6) {\n          enabled_bitset[local_value / 64] |= ((uint64_t) 1 << (local_value % 64));\n          some_mutation_enabled = 1;\n        }\n        token = strtok(NULL, \",\");\n      }\n      free(temp);\n    }\n    initialized = 1;\n    __dredd_some_mutation_enabled = some_mutation_enabled;\n  }\n  return enabled_bitset[local_mutation_id / 64] & ((uint64_t) 1 << (local_mutation_id % 64));\n}\n\nstatic int __dredd_replace_expr_int(int arg, int local_mutation_id) {\n  if (!__dredd_some_mutation_enabled) return arg;\n  if (__dredd_enabled_mutation(local_mutation_id + 0)) return !(arg);\n  if (__dredd_enabled_mutation(local_mutation_id + 1)) return ~(arg);\n  if (__dredd_enabled_mutation(local_mutation_id + 2)) return -(arg);\n  if (__dredd_enabled_mutation(local_mutation_id + 3)) return 0;\n  if (__dredd_enabled_mutation(local_mutation_id + 4)) return 1;\n  if (__dredd_enabled_mutation(local_mutation_id + 5)) return -1;\n  return arg;\n}\n\nenum A {\n  X,\n  Y\n};\n\nvoid foo() {\n  enum A myA = __dredd_replace_expr_int(X, 0);\n}\n" }

#guard enum_c.ok

/-- test/single_file/expr_macro.c -/
def expr_macro_c : Case :=
  let src : Text := t!"#define E (1, 2, 3)\n\nvoid foo(int, int, int);\n\nint main() {\n  foo E;\n}\n"
  { name := "expr_macro.c", lang := c, src := src, ast :=
    .decl ⟨.tu, none⟩ [
     .decl ⟨.func false none, (some ⟨21, 44⟩)⟩ [
      .decl ⟨.parm, (some ⟨30, 33⟩)⟩ [],
      .decl ⟨.parm, (some ⟨35, 38⟩)⟩ [],
      .decl ⟨.parm, (some ⟨40, 43⟩)⟩ []],
     .decl ⟨.func false none, (some ⟨47, 70⟩)⟩ [
      st src .compound .plain (some ⟨58, 70⟩) [
       ex src (.call none false false) none .plain 62 (some ⟨62, 67⟩) (fun f => { f with sideEffects := true }) [
        ex src (.cast true false) none .plain 62 (some ⟨62, 65⟩) (fun f => { f with anyPointer := true, pointer := true }) [
         ex src .other none .operand 62 (some ⟨62, 65⟩) (fun f => { f with lvalue := true }) []],
        ex src .other (some .int) .callArg 66 none (fun f => { f with intVal := some 1, boolVal := some true }) [],
        ex src .other (some .int) .callArg 66 none (fun f => { f with intVal := some 2, boolVal := some true }) [],
        ex src .other (some .int) .callArg 66 none (fun f => { f with intVal := some 3, boolVal := some true }) []]]]]
    expected := "// DREDD PRELUDE START\n// If this has been inserted at an inappropriate place in a source file,\n// declare a placeholder function with the following signature to\n// mandate where the prelude should be placed:\n//\n// void __dredd_prelude_start();\n//\n#include <inttypes.h>\n#include <stdatomic.h>\n#include <stdbool.h>\n#include <stdio.h>\n#include <stdlib.h>\n#include <string.h>\n\n#ifdef _MSC_VER\n#define thread_local __declspec(thread)\n#elif __APPLE__\n#define thread_local __thread\n#else\n#include <threads.h>\n#endif\n\nstatic thread_local int __dredd_some_mutation_enabled = 1;\nstatic bool __dredd_enabled_mutation(int local_mutation_id) {\n  static thread_local int initialized = 0;\n  static thread_local uint64_t enabled_bitset[1];\n  if (!initialized) {\n    int some_mutation_enabled = 0;\n    const char* dredd_environment_variable = getenv(\"DREDD_ENABLED_MUTATION\");\n    if (dredd_environment_variable) {\n      char* temp = malloc(strlen(dredd_environment_variable) + 1);\n      strcpy(temp, dredd_environment_variable);\n      char* token;\n      token = strtok(temp, \",\");\n      while(token) {\n        int value = atoi(token);\n        int local_value = value - 0;\n        if (local_value >= 0 && local_value < 1) {\n          enabled_bitset[local_value / 64] |= ((uint64_t) 1 << (local_value % 64));\n          some_mutation_enabled = 1;\n        }\n        token = strtok(NULL, \",\");\n      }\n      free(temp);\n    }\n    initialized = 1;\n    __dredd_some_mutation_enabled = some_mutation_enabled;\n  }\n  return enabled_bitset[local_mutation_id / 64] & ((uint64_t) 1 << (local_mutation_id % 64));\n}\n\n#define E (1, 2, 3)\n\nvoid foo(int, int, int);\n\nint main() {\n  if (!__dredd_enabled_mutation(0)) { foo E; }\n}\n"
    noopt := "// DREDD PRELUDE START\n// If this has been inserted at an inappropriate place in a source file,\n// declare a placeholder function with the following signature to\n// mandate where the prelude should be placed:\n//\n// void __dredd_prelude_start();\n//\n#include <inttypes.h>\n#include <stdatomic.h>\n#include <stdbool.h>\n#include <stdio.h>\n#include <stdlib.h>\n#include <string.h>\n\n#ifdef _MSC_VER\n#define thread_local __declspec(thread)\n#elif __APPLE__\n#define thread_local __thread\n#else\n#include <threads.h>\n#endif\n\nstatic thread_local int __dredd_some_mutation_enabled = 1;\nstatic bool __dredd_enabled_mutation(int local_mutation_id) {\n  static thread_local int initialized = 0;\n  static thread_local uint64_t enabled_bitset[1];\n  if (!initialized) {\n    int some_mutation_enabled = 0;\n    const char* dredd_environment_variable = getenv(\"DREDD_ENABLED_MUTATION\");\n    if (dredd_environment_variable) {\n      char* temp = malloc(strlen(dredd_environment_variable) + 1);\n      strcpy(temp, dredd_environment_variable);\n      char* token;\n      token = strtok(temp, \",\");\n      while(token) {\n        int value = atoi(token);\n        int local_value = value - 0;\n        if (local_value >= 0 && local_value < 1) {\n          enabled_bitset[local_value / 64] |= ((uint64_t) 1 << (local_value % 64));\n          some_mutation_enabled = 1;\n        }\n        token = strtok(NULL, \",\");\n      }\n      free(temp);\n    }\n    initialized = 1;\n    __dredd_some_mutation_enabled = some_mutation_enabled;\n  }\n  return enabled_bitset[local_mutation_id / 64] & ((uint64_t) 1 << (local_mutation_id % 64));\n}\n\n#define E (1, 2, 3)\n\nvoid foo(int, int, int);\n\nint main() {\n  if (!__dredd_enabled_mutation(0)) { foo E; }\n}\n" }

#guard expr_macro_c.ok

/-- test/single_file/expr_macro.cc -/
def expr_macro_cc : Case :=
  let src : Text := t!"#define E (1, 2, 3)\n\nvoid foo(int, int, int);\n\nint main() {\n  foo E;\n}\n"
  { name := "expr_macro.cc", lang := cpp, src := src, ast :=
    .decl ⟨.tu, none⟩ [
     .decl ⟨.func false none, (some ⟨21, 44⟩)⟩ [
      .decl ⟨.parm, (some ⟨30, 33⟩)⟩ [],
      .decl ⟨.parm, (some ⟨35, 38⟩)⟩ [],
      .decl ⟨.parm, (some ⟨40, 43⟩)⟩ []],
     .decl ⟨.func false none, (some ⟨47, 70⟩)⟩ [
      st src .compound .plain (some ⟨58, 70⟩) [
       ex src (.call none false false) none .plain 62 (some ⟨62, 67⟩) (fun f => { f with sideEffects := true }) [
        ex src (.cast true false) none .plain 62 (some ⟨62, 65⟩) (fun f => { f with anyPointer := true, pointer := true }) [
         ex src .other none .operand 62 (some ⟨62, 65⟩) (fun f => { f with lvalue := true }) []],
        ex src .other (some .int) .callArg 66 none (fun f => { f with intVal := some 1, boolVal := some true, cxx11Const := true }) [],
        ex src .other (some .int) .callArg 66 none (fun f => { f with intVal := some 2, boolVal := some true, cxx11Const := true }) [],
        ex src .other (some .int) .callArg 66 none (fun f => { f with intVal := some 3, boolVal := some true, cxx11Const := true }) []]]]]
    expected := "// DREDD PRELUDE START\n// If this has been inserted at an inappropriate place in a source file,\n// declare a placeholder function with the following signature to\n// mandate where the prelude should be placed:\n//\n// void __dredd_prelude_start();\n//\n#include <atomic>\n#include <cinttypes>\n#include <cstddef>\n#include <fstream>\n#include <functional>\n#include <sstream>\n#include <string>\n\n\n#ifdef _MSC_VER\n#define thread_local __declspec(thread)\n#elif __APPLE__\n#define thread_local __thread\n#endif\n\nstatic thread_local bool __dredd_some_mutation_enabled = true;\nstatic bool __dredd_enabled_mutation(int local_mutation_id) {\n  static thread_local bool initialized = false;\n  static thread_local uint64_t enabled_bitset[1];\n  if (!initialized) {\n    bool some_mutation_enabled = false;\n    const char* dredd_environment_variable = std::getenv(\"DREDD_ENABLED_MUTATION\");\n    if (dredd_environment_variable != nullptr) {\n      std::string contents(dredd_environment_variable);\n      while (true) {\n        size_t pos = contents.find(\",\");\n        std::string token = (pos == std::string::npos ? contents : contents.substr(0, pos));\n        if (!token.empty()) {\n          int value = std::stoi(token);\n          int local_value = value - 0;\n          if (local_value >= 0 && local_value < 1) {\n            enabled_bitset[local_value / 64] |= (static_cast<uint64_t>(1) << (local_value % 64));\n            some_mutation_enabled = true;\n          }\n        }\n        if (pos == std::string::npos) {\n          break;\n        }\n        contents.erase(0, pos + 1);\n      }\n    }\n    initialized = true;\n    __dredd_some_mutation_enabled = some_mutation_enabled;\n  }\n  return (enabled_bitset[local_mutation_id / 64] & (static_cast<uint64_t>(1) << (local_mutation_id % 64))) != 0;\n}\n\n#define E (1, 2, 3)\n\nvoid foo(int, int, int);\n\nint main() {\n  if (!__dredd_enabled_mutation(0)) { foo E; }\n}\n"
    noopt := "// DREDD PRELUDE START\n// If this has been inserted at an inappropriate place in a source file,\n// declare a placeholder function with the following signature to\n// mandate where the prelude should be placed:\n//\n// void __dredd_prelude_start();\n//\n#include <atomic>\n#include <cinttypes>\n#include <cstddef>\n#include <fstream>\n#include <functional>\n#include <sstream>\n#include <string>\n\n\n#ifdef _MSC_VER\n#define thread_local __declspec(thread)\n#elif __APPLE__\n#define thread_local __thread\n#endif\n\nstatic thread_local bool __dredd_some_mutation_enabled = true;\nstatic bool __dredd_enabled_mutation(int local_mutation_id) {\n  static thread_local bool initialized = false;\n  static thread_local uint64_t enabled_bitset[1];\n  if (!initialized) {\n    bool some_mutation_enabled = false;\n    const char* dredd_environment_variable = std::getenv(\"DREDD_ENABLED_MUTATION\");\n    if (dredd_environment_variable != nullptr) {\n      std::string contents(dredd_environment_variable);\n      while (true) {\n        size_t pos = contents.find(\",\");\n        std::string token = (pos == std::string::npos ? contents : contents.substr(0, pos));\n        if (!token.empty()) {\n          int value = std::stoi(token);\n          int local_value = value - 0;\n          if (local_value >= 0 && local_value < 1) {\n            enabled_bitset[local_value / 64] |= (static_cast<uint64_t>(1) << (local_value % 64));\n            some_mutation_enabled = true;\n          }\n        }\n        if (pos == std::string::npos) {\n          break;\n        }\n        contents.erase(0, pos + 1);\n      }\n    }\n    initialized = true;\n    __dredd_some_mutation_enabled = some_mutation_enabled;\n  }\n  return (enabled_bitset[local_mutation_id / 64] & (static_cast<uint64_t>(1) << (local_mutation_id % 64))) != 0;\n}\n\n#define E (1, 2, 3)\n\nvoid foo(int, int, int);\n\nint main() {\n  if (!__dredd_enabled_mutation(0)) { foo E; }\n}\n" }

#guard expr_macro_cc.ok

/-- test/single_file/float_unary_opt.c -/
def float_unary_opt_c : Case :=
  let src : Text := t!"int main() {\n  double x = -1.0;\n}\n"
  { name := "float_unary_opt.c", lang := c, src := src, ast :=
    .decl ⟨.tu, none⟩ [
     .decl ⟨.func false none, (some ⟨0, 33⟩)⟩ [
      st src .compound .plain (some ⟨11, 33⟩) [
       st src .declStmt .plain (some ⟨15, 31⟩) [
        .decl ⟨.var ⟨22, false, [], [], false, false, false⟩, (some ⟨15, 30⟩)⟩ [
         ex src (.unary .minus) (some .double) .plain 26 (some ⟨26, 30⟩) (fun f => { f with floatVal := some .minusOne, boolVal := some true, opOff := some 26 }) [
          ex src .other (some .double) .operand 27 (some ⟨27, 30⟩) (fun f => { f with floatVal := some .one, boolVal := some true }) []]]]]]]
    expected := "// DREDD PRELUDE START\n// If this has been inserted at an inappropriate place in a source file,\n// declare a placeholder function with the following signature to\n// mandate where the prelude should be placed:\n//\n// void __dredd_prelude_start();\n//\n#include <inttypes.h>\n#include <stdatomic.h>\n#include <stdbool.h>\n#include <stdio.h>\n#include <stdlib.h>\n#include <string.h>\n\n#ifdef _MSC_VER\n#define thread_local __declspec(thread)\n#elif __APPLE__\n#define thread_local __thread\n#else\n#include <threads.h>\n#endif\n\nstatic thread_local int __dredd_some_mutation_enabled = 1;\nstatic bool __dredd_enabled_mutation(int local_mutation_id) {\n  static thread_local int initialized = 0;\n  static thread_local uint64_t enabled_bitset[1];\n  if (!initialized) {\n    int some_mutation_enabled = 0;\n    const char* dredd_environment_variable = getenv(\"DREDD_ENABLED_MUTATION\");\n    if (dredd_environment_variable) {\n      char* temp = malloc(strlen(dredd_environment_variable) + 1);\n      strcpy(temp, dredd_environment_variable);\n      char* token;\n      token = strtok(temp, \",\");\n      while(token) {\n        int value = atoi(token);\n        int local_value = value - 0;\n        if (local_value >= 0 && local_value < 4) {\n          enabled_bitset[local_value / 64] |= ((uint64_t) 1 << (local_value % 64));\n          some_mutation_enabled = 1;\n        }\n        token = strtok(NULL, \",\");\n      }\n      free(temp);\n    }\n    initialized = 1;\n    __dredd_some_mutation_enabled = some_mutation_enabled;\n  }\n  return enabled_bitset[local_mutation_id / 64] & ((uint64_t) 1 << (local_mutation_id % 64));\n}\n\nstatic double __dredd_replace_expr_double_one(double arg, int local_mutation_id) {\n  if (!__dredd_some_mutation_enabled) return arg;\n  if (__dredd_enabled_mutation(local_mutation_id + 0)) return 0.0;\n  if (__dredd_enabled_mutation(local_mutation_id + 1)) return -1.0;\n  return arg;\n}\n\nstatic double __dredd_replace_expr_double_minus_one(double arg, int local_mutation_id) {\n  if (!__dredd_some_mutation_enabled) return arg;\n  if (__dredd_enabled_mutation(local_mutation_id + 0)) return 0.0;\n  if (__dredd_enabled_mutation(local_mutation_id + 1)) return 1.0;\n  return arg;\n}\n\nint main() {\n  double x = __dredd_replace_expr_double_minus_one(-__dredd_replace_expr_double_one(1.0, 0), 2);\n}\n"
    noopt := "// DREDD PRELUDE START\n// If this has been inserted at an inappropriate place in a source file,\n// declare a placeholder function with the following signature to\n// mandate where the prelude should be placed:\n//\n// void __dredd_prelude_start();\n//\n#include <inttypes.h>\n#include <stdatomic.h>\n#include <stdbool.h>\n#include <stdio.h>\n#include <stdlib.h>\n#include <string.h>\n\n#ifdef _MSC_VER\n#define thread_local __declspec(thread)\n#elif __APPLE__\n#define thread_local __thread\n#else\n#include <threads.h>\n#endif\n\nstatic thread_local int __dredd_some_mutation_enabled = 1;\nstatic bool __dredd_enabled_mutation(int local_mutation_id) {\n  static thread_local int initialized = 0;\n  static thread_local uint64_t enabled_bitset[1];\n  if (!initialized) {\n    int some_mutation_enabled = 0;\n    const char* dredd_environment_variable = getenv(\"DREDD_ENABLED_MUTATION\");\n    if (dredd_environment_variable) {\n      char* temp = malloc(strlen(dredd_environment_variable) + 1);\n      strcpy(temp, dredd_environment_variable);\n      char* token;\n      token = strtok(temp, \",\");\n      while(token) {\n        int value = atoi(token);\n        int local_value = value - 0;\n        if (local_value >= 0 && local_value < 10) {\n          enabled_bitset[local_value / 64] |= ((uint64_t) 1 << (local_value % 64));\n          some_mutation_enabled = 1;\n        }\n        token = strtok(NULL, \",\");\n      }\n      free(temp);\n    }\n    initialized = 1;\n    __dredd_some_mutation_enabled = some_mutation_enabled;\n  }\n  return enabled_bitset[local_mutation_id / 64] & ((uint64_t) 1 << (local_mutation_id % 64));\n}\n\nstatic double __dredd_replace_unary_operator_Minus_double(double arg, int local_mutation_id) {\n  if (!__dredd_some_mutation_enabled) return -arg;\n  if (__dredd_enabled_mutation(local_mutation_id + 0)) return !arg;\n  if (__dredd_enabled_mutation(local_mutation_id + 1)) return arg;\n  return -arg;\n}\n\nstatic double __dredd_replace_expr_double(double arg, int local_mutation_id) {\n  if (!__dredd_some_mutation_enabled) return arg;\n  if (__dredd_enabled_mutation(local_mutation_id + 0)) return -(arg);\n  if (__dredd_enabled_mutation(local_mutation_id + 1)) return 0.0;\n  if (__dredd_enabled_mutation(local_mutation_id + 2)) return 1.0;\n  if (__dredd_enabled_mutation(local_mutation_id + 3)) return -1.0;\n  return arg;\n}\n\nint main() {\n  double x = __dredd_replace_expr_double(__dredd_replace_unary_operator_Minus_double(__dredd_replace_expr_double(1.0, 0), 4), 6);\n}\n" }

#guard float_unary_opt_c.ok

/-- test/single_file/float_unary_opt.cc -/
def float_unary_opt_cc : Case :=
  let src : Text := t!"int main() {\n  double x = -1.0;\n}\n"
  { name := "float_unary_opt.cc", lang := cpp, src := src, ast :=
    .decl ⟨.tu, none⟩ [
     .decl ⟨.func false none, (some ⟨0, 33⟩)⟩ [
      st src .compound .plain (some ⟨11, 33⟩) [
       st src .declStmt .plain (some ⟨15, 31⟩) [
        .decl ⟨.var ⟨22, false, [], [], false, false, false⟩, (some ⟨15, 30⟩)⟩ [
         ex src (.unary .minus) (some .double) .plain 26 (some ⟨26, 30⟩) (fun f => { f with floatVal := some .minusOne, boolVal := some true, cxx11Const := true, opOff := some 26 }) [
          ex src .other (some .double) .operand 27 (some ⟨27, 30⟩) (fun f => { f with floatVal := some .one, boolVal := some true, cxx11Const := true }) []]]]]]]
    expected := "// DREDD PRELUDE START\n// If this has been inserted at an inappropriate place in a source file,\n// declare a placeholder function with the following signature to\n// mandate where the prelude should be placed:\n//\n// void __dredd_prelude_start();\n//\n#include <atomic>\n#include <cinttypes>\n#include <cstddef>\n#include <fstream>\n#include <functional>\n#include <sstream>\n#include <string>\n\n\n#ifdef _MSC_VER\n#define thread_local __declspec(thread)\n#elif __APPLE__\n#define thread_local __thread\n#endif\n\nstatic thread_local bool __dredd_some_mutation_enabled = true;\nstatic bool __dredd_enabled_mutation(int local_mutation_id) {\n  static thread_local bool initialized = false;\n  static thread_local uint64_t enabled_bitset[1];\n  if (!initialized) {\n    bool some_mutation_enabled = false;\n    const char* dredd_environment_variable = std::getenv(\"DREDD_ENABLED_MUTATION\");\n    if (dredd_environment_variable != nullptr) {\n      std::string contents(dredd_environment_variable);\n      while (true) {\n        size_t pos = contents.find(\",\");\n        std::string token = (pos == std::string::npos ? contents : contents.substr(0, pos));\n        if (!token.empty()) {\n          int value = std::stoi(token);\n          int local_value = value - 0;\n          if (local_value >= 0 && local_value < 4) {\n            enabled_bitset[local_value / 64] |= (static_cast<uint64_t>(1) << (local_value % 64));\n            some_mutation_enabled = true;\n          }\n        }\n        if (pos == std::string::npos) {\n          break;\n        }\n        contents.erase(0, pos + 1);\n      }\n    }\n    initialized = true;\n    __dredd_some_mutation_enabled = some_mutation_enabled;\n  }\n  return (enabled_bitset[local_mutation_id / 64] & (static_cast<uint64_t>(1) << (local_mutation_id % 64))) != 0;\n}\n\nstatic double __dredd_replace_expr_double_one(double arg, int local_mutation_id) {\n  if (!__dredd_some_mutation_enabled) return arg;\n  if (__dredd_enabled_mutation(local_mutation_id + 0)) return 0.0;\n  if (__dredd_enabled_mutation(local_mutation_id + 1)) return -1.0;\n  return arg;\n}\n\nstatic double __dredd_replace_expr_double_minus_one(double arg, int local_mutation_id) {\n  if (!__dredd_some_mutation_enabled) return arg;\n  if (__dredd_enabled_mutation(local_mutation_id + 0)) return 0.0;\n  if (__dredd_enabled_mutation(local_mutation_id + 1)) return 1.0;\n  return arg;\n}\n\nint main() {\n  double x = __dredd_replace_expr_double_minus_one(-__dredd_replace_expr_double_one(1.0, 0), 2);\n}\n"
    noopt := "// DREDD PRELUDE START\n// If this has been inserted at an inappropriate place in a source file,\n// declare a placeholder function with the following signature to\n// mandate where the prelude should be placed:\n//\n// void __dredd_prelude_start();\n//\n#include <atomic>\n#include <cinttypes>\n#include <cstddef>\n#include <fstream>\n#include <functional>\n#include <sstream>\n#include <string>\n\n\n#ifdef _MSC_VER\n#define thread_local __declspec(thread)\n#elif __APPLE__\n#define thread_local __thread\n#endif\n\nstatic thread_local bool __dredd_some_mutation_enabled = true;\nstatic bool __dredd_enabled_mutation(int local_mutation_id) {\n  static thread_local bool initialized = false;\n  static thread_local uint64_t enabled_bitset[1];\n  if (!initialized) {\n    bool some_mutation_enabled = false;\n    const char* dredd_environment_variable = std::getenv(\"DREDD_ENABLED_MUTATION\");\n    if (dredd_environment_variable != nullptr) {\n      std::string contents(dredd_environment_variable);\n      while (true) {\n        size_t pos = contents.find(\",\");\n        std::string token = (pos == std::string::npos ? contents : contents.substr(0, pos));\n        if (!token.empty()) {\n          int value = std::stoi(token);\n          int local_value = value - 0;\n          if (local_value >= 0 && local_value < 10) {\n            enabled_bitset[local_value / 64] |= (static_cast<uint64_t>(1) << (local_value % 64));\n            some_mutation_enabled = true;\n          }\n        }\n        if (pos == std::string::npos) {\n          break;\n        }\n        contents.erase(0, pos + 1);\n      }\n    }\n    initialized = true;\n    __dredd_some_mutation_enabled = some_mutation_enabled;\n  }\n  return (enabled_bitset[local_mutation_id / 64] & (static_cast<uint64_t>(1) << (local_mutation_id % 64))) != 0;\n}\n\nstatic double __dredd_replace_unary_operator_Minus_double(double arg, int local_mutation_id) {\n  if (!__dredd_some_mutation_enabled) return -arg;\n  if (__dredd_enabled_mutation(local_mutation_id + 0)) return !arg;\n  if (__dredd_enabled_mutation(local_mutation_id + 1)) return arg;\n  return -arg;\n}\n\nstatic double __dredd_replace_expr_double(double arg, int local_mutation_id) {\n  if (!__dredd_some_mutation_enabled) return arg;\n  if (__dredd_enabled_mutation(local_mutation_id + 0)) return -(arg);\n  if (__dredd_enabled_mutation(local_mutation_id + 1)) return 0.0;\n  if (__dredd_enabled_mutation(local_mutation_id + 2)) return 1.0;\n  if (__dredd_enabled_mutation(local_mutation_id + 3)) return -1.0;\n  return arg;\n}\n\nint main() {\n  double x = __dredd_replace_expr_double(__dredd_replace_unary_operator_Minus_double(__dredd_replace_expr_double(1.0, 0), 4), 6);\n}\n" }

#guard float_unary_opt_cc.ok

/-- test/single_file/initializer.c -/
def initializer_c : Case :=
  let src : Text := t!"void foo(int a, int b) {\n  int x = a + b;\n}\n"
  { name := "initializer.c", lang := c, src := src, ast :=
    .decl ⟨.tu, none⟩ [
     .decl ⟨.func false none, (some ⟨0, 43⟩)⟩ [
      .decl ⟨.parm, (some ⟨9, 14⟩)⟩ [],
      .decl ⟨.parm, (some ⟨16, 21⟩)⟩ [],
      st src .compound .plain (some ⟨23, 43⟩) [
       st src .declStmt .plain (some ⟨27, 41⟩) [
        .decl ⟨.var ⟨31, false, [], [], false, false, false⟩, (some ⟨27, 40⟩)⟩ [
         ex src (.binary .add) (some .int) .plain 35 (some ⟨35, 40⟩) (fun f => { f with opOff := some 37 }) [
          ex src (.cast true false) (some .int) .lhs 35 (some ⟨35, 36⟩) id [
           ex src .other (some .int) .operand 35 (some ⟨35, 36⟩) (fun f => { f with lvalue := true }) []],
          ex src (.cast true false) (some .int) .rhs 39 (some ⟨39, 40⟩) id [
           ex src .other (some .int) .operand 39 (some ⟨39, 40⟩) (fun f => { f with lvalue := true }) []]]]]]]]
    expected := "// DREDD PRELUDE START\n// If this has been inserted at an inappropriate place in a source file,\n// declare a placeholder function with the following signature to\n// mandate where the prelude should be placed:\n//\n// void __dredd_prelude_start();\n//\n#include <inttypes.h>\n#include <stdatomic.h>\n#include <stdbool.h>\n#include <stdio.h>\n#include <stdlib.h>\n#include <string.h>\n\n#ifdef _MSC_VER\n#define thread_local __declspec(thread)\n#elif __APPLE__\n#define thread_local __thread\n#else\n#include <threads.h>\n#endif\n\nstatic thread_local int __dredd_some_mutation_enabled = 1;\nstatic bool __dredd_enabled_mutation(int local_mutation_id) {\n  static thread_local int initialized = 0;\n  static thread_local uint64_t enabled_bitset[1];\n  if (!initialized) {\n    int some_mutation_enabled = 0;\n    const char* dredd_environment_variable = getenv(\"DREDD_ENABLED_MUTATION\");\n    if (dredd_environment_variable) {\n      char* temp = malloc(strlen(dredd_environment_variable) + 1);\n      strcpy(temp, dredd_environment_variable);\n      char* token;\n      token = strtok(temp, \",\");\n      while(token) {\n        int value = atoi(token);\n        int local_value = value - 0;\n        if (local_value >= 0 && local_value < 28) {\n          enabled_bitset[local_value / 64] |= ((uint64_t) 1 << (local_value % 64));\n          some_mutation_enabled = 1;\n        }\n        token = strtok(NULL, \",\");\n      }\n      free(temp);\n    }\n    initialized = 1;\n    __dredd_some_mutation_enabled = some_mutation_enabled;\n  }\n  return enabled_bitset[local_mutation_id / 64] & ((uint64_t) 1 << (local_mutation_id % 64));\n}\n\nstatic int __dredd_replace_expr_int_lvalue(int* arg, int local_mutation_id) {\n  if (!__dredd_some_mutation_enabled) return (*arg);\n  if (__dredd_enabled_mutation(local_mutation_id + 0)) return ++((*arg));\n  if (__dredd_enabled_mutation(local_mutation_id + 1)) return --((*arg));\n  return (*arg);\n}\n\nstatic int __dredd_replace_expr_int(int arg, int local_mutation_id) {\n  if (!__dredd_some_mutation_enabled) return arg;\n  if (__dredd_enabled_mutation(local_mutation_id + 0)) return !(arg);\n  if (__dredd_enabled_mutation(local_mutation_id + 1)) return ~(arg);\n  if (__dredd_enabled_mutation(local_mutation_id + 2)) return -(arg);\n  if (__dredd_enabled_mutation(local_mutation_id + 3)) return 0;\n  if (__dredd_enabled_mutation(local_mutation_id + 4)) return 1;\n  if (__dredd_enabled_mutation(local_mutation_id + 5)) return -1;\n  return arg;\n}\n\nstatic int __dredd_replace_binary_operator_Add_arg1_int_arg2_int(int arg1, int arg2, int local_mutation_id) {\n  if (!__dredd_some_mutation_enabled) return arg1 + arg2;\n  if (__dredd_enabled_mutation(local_mutation_id + 0)) return arg1 / arg2;\n  if (__dredd_enabled_mutation(local_mutation_id + 1)) return arg1 * arg2;\n  if (__dredd_enabled_mutation(local_mutation_id + 2)) return arg1 % arg2;\n  if (__dredd_enabled_mutation(local_mutation_id + 3)) return arg1 - arg2;\n  if (__dredd_enabled_mutation(local_mutation_id + 4)) return arg1;\n  if (__dredd_enabled_mutation(local_mutation_id + 5)) return arg2;\n  return arg1 + arg2;\n}\n\nvoid foo(int a, int b) {\n  int x = __dredd_replace_expr_int(__dredd_replace_binary_operator_Add_arg1_int_arg2_int(__dredd_replace_expr_int(__dredd_replace_expr_int_lvalue(&(a), 0), 2) , __dredd_replace_expr_int(__dredd_replace_expr_int_lvalue(&(b), 8), 10), 16), 22);\n}\n"
    noopt := "// DREDD PRELUDE START\n// If this has been inserted at an inappropriate place in a source file,\n// declare a placeholder function with the following signature to\n// mandate where the prelude should be placed:\n//\n// void __dredd_prelude_start();\n//\n#include <inttypes.h>\n#include <stdatomic.h>\n#include <stdbool.h>\n#include <stdio.h>\n#include <stdlib.h>\n#include <string.h>\n\n#ifdef _MSC_VER\n#define thread_local __declspec(thread)\n#elif __APPLE__\n#define thread_local __thread\n#else\n#include <threads.h>\n#endif\n\nstatic thread_local int __dredd_some_mutation_enabled = 1;\nstatic bool __dredd_enabled_mutation(int local_mutation_id) {\n  static thread_local int initialized = 0;\n  static thread_local uint64_t enabled_bitset[1];\n  if (!initialized) {\n    int some_mutation_enabled = 0;\n    const char* dredd_environment_variable = getenv(\"DREDD_ENABLED_MUTATION\");\n    if (dredd_environment_variable) {\n      char* temp = malloc(strlen(dredd_environment_variable) + 1);\n      strcpy(temp, dredd_environment_variable);\n      char* token;\n      token = strtok(temp, \",\");\n      while(token) {\n        int value = atoi(token);\n        int local_value = value - 0;\n        if (local_value >= 0 && local_value < 28) {\n          enabled_bitset[local_value / 64] |= ((uint64_t) 1 << (local_value % 64));\n          some_mutation_enabled = 1;\n        }\n        token = strtok(NULL, \",\");\n      }\n      free(temp);\n    }\n    initialized = 1;\n    __dredd_some_mutation_enabled = some_mutation_enabled;\n  }\n  return enabled_bitset[local_mutation_id / 64] & ((uint64_t) 1 << (local_mutation_id % 64));\n}\n\nstatic int __dredd_replace_expr_int_lvalue(int* arg, int local_mutation_id) {\n  if (!__dredd_some_mutation_enabled) return (*arg);\n  if (__dredd_enabled_mutation(local_mutation_id + 0)) return ++((*arg));\n  if (__dredd_enabled_mutation(local_mutation_id + 1)) return --((*arg));\n  return (*arg);\n}\n\nstatic int __dredd_replace_expr_int(int arg, int local_mutation_id) {\n  if (!__dredd_some_mutation_enabled) return arg;\n  if (__dredd_enabled_mutation(local_mutation_id + 0)) return !(arg);\n  if (__dredd_enabled_mutation(local_mutation_id + 1)) return ~(arg);\n  if (__dredd_enabled_mutation(local_mutation_id + 2)) return -(arg);\n  if (__dredd_enabled_mutation(local_mutation_id + 3)) return 0;\n  if (__dredd_enabled_mutation(local_mutation_id + 4)) return 1;\n  if (__dredd_enabled_mutation(local_mutation_id + 5)) return -1;\n  return arg;\n}\n\nstatic int __dredd_replace_binary_operator_Add_arg1_int_arg2_int(int arg1, int arg2, int local_mutation_id) {\n  if (!__dredd_some_mutation_enabled) return arg1 + arg2;\n  if (__dredd_enabled_mutation(local_mutation_id + 0)) return arg1 / arg2;\n  if (__dredd_enabled_mutation(local_mutation_id + 1)) return arg1 * arg2;\n  if (__dredd_enabled_mutation(local_mutation_id + 2)) return arg1 % arg2;\n  if (__dredd_enabled_mutation(local_mutation_id + 3)) return arg1 - arg2;\n  if (__dredd_enabled_mutation(local_mutation_id + 4)) return arg1;\n  if (__dredd_enabled_mutation(local_mutation_id + 5)) return arg2;\n  return arg1 + arg2;\n}\n\nvoid foo(int a, int b) {\n  int x = __dredd_replace_expr_int(__dredd_replace_binary_operator_Add_arg1_int_arg2_int(__dredd_replace_expr_int(__dredd_replace_expr_int_lvalue(&(a), 0), 2) , __dredd_replace_expr_int(__dredd_replace_expr_int_lvalue(&(b), 8), 10), 16), 22);\n}\n" }

#guard initializer_c.ok

/-- test/single_file/initializer_list_parenthesis.cc -/
def initializer_list_parenthesis_cc : Case :=
  let src : Text := t!"struct foo {\n  short x;\n  short y;\n  short z;\n};\n\nvoid baz() {\n  foo bar = {1, (2), (((3)))};\n}\n"
  { name := "initializer_list_parenthesis.cc", lang := cpp, src := src, ast :=
    .decl ⟨.tu, none⟩ [
     .decl ⟨.other, (some ⟨0, 47⟩)⟩ [
      .decl ⟨.field false [], (some ⟨15, 22⟩)⟩ [],
      .decl ⟨.field false [], (some ⟨26, 33⟩)⟩ [],
      .decl ⟨.field false [], (some ⟨37, 44⟩)⟩ []],
     .decl ⟨.func false none, (some ⟨50, 95⟩)⟩ [
      st src .compound .plain (some ⟨61, 95⟩) [
       st src .declStmt .plain (some ⟨65, 93⟩) [
        .decl ⟨.var ⟨69, false, [], [], false, false, false⟩, (some ⟨65, 92⟩)⟩ [
         ex src .initList none .plain 75 (some ⟨75, 92⟩) id [
          ex src .other (some .int) .plain 76 (some ⟨76, 77⟩) (fun f => { f with intVal := some 1, boolVal := some true, cxx11Const := true, initCast := some ⟨false, false, (some .short)⟩ }) [],
          ex src .paren (some .int) .plain 79 (some ⟨79, 82⟩) (fun f => { f with intVal := some 2, boolVal := some true, cxx11Const := true, initCast := some ⟨false, false, (some .short)⟩ }) [
           ex src .other (some .int) .plain 80 (some ⟨80, 81⟩) (fun f => { f with intVal := some 2, boolVal := some true, cxx11Const := true }) []],
          ex src .paren (some .int) .plain 84 (some ⟨84, 91⟩) (fun f => { f with intVal := some 3, boolVal := some true, cxx11Const := true, initCast := some ⟨false, false, (some .short)⟩ }) [
           ex src .paren (some .int) .plain 85 (some ⟨85, 90⟩) (fun f => { f with intVal := some 3, boolVal := some true, cxx11Const := true }) [
            ex src .paren (some .int) .plain 86 (some ⟨86, 89⟩) (fun f => { f with intVal := some 3, boolVal := some true, cxx11Const := true }) [
             ex src .other (some .int) .plain 87 (some ⟨87, 88⟩) (fun f => { f with intVal := some 3, boolVal := some true, cxx11Const := true }) []]]]]]]]]]
    expected := "// DREDD PRELUDE START\n// If this has been inserted at an inappropriate place in a source file,\n// declare a placeholder function with the following signature to\n// mandate where the prelude should be placed:\n//\n// void __dredd_prelude_start();\n//\n#include <atomic>\n#include <cinttypes>\n#include <cstddef>\n#include <fstream>\n#include <functional>\n#include <sstream>\n#include <string>\n\n\n#ifdef _MSC_VER\n#define thread_local __declspec(thread)\n#elif __APPLE__\n#define thread_local __thread\n#endif\n\nstatic thread_local bool __dredd_some_mutation_enabled = true;\nstatic bool __dredd_enabled_mutation(int local_mutation_id) {\n  static thread_local bool initialized = false;\n  static thread_local uint64_t enabled_bitset[1];\n  if (!initialized) {\n    bool some_mutation_enabled = false;\n    const char* dredd_environment_variable = std::getenv(\"DREDD_ENABLED_MUTATION\");\n    if (dredd_environment_variable != nullptr) {\n      std::string contents(dredd_environment_variable);\n      while (true) {\n        size_t pos = contents.find(\",\");\n        std::string token = (pos == std::string::npos ? contents : contents.substr(0, pos));\n        if (!token.empty()) {\n          int value = std::stoi(token);\n          int local_value = value - 0;\n          if (local_value >= 0 && local_value < 13) {\n            enabled_bitset[local_value / 64] |= (static_cast<uint64_t>(1) << (local_value % 64));\n            some_mutation_enabled = true;\n          }\n        }\n        if (pos == std::string::npos) {\n          break;\n        }\n        contents.erase(0, pos + 1);\n      }\n    }\n    initialized = true;\n    __dredd_some_mutation_enabled = some_mutation_enabled;\n  }\n  return (enabled_bitset[local_mutation_id / 64] & (static_cast<uint64_t>(1) << (local_mutation_id % 64))) != 0;\n}\n\nstatic int __dredd_replace_expr_int_one(int arg, int local_mutation_id) {\n  if (!__dredd_some_mutation_enabled) return arg;\n  if (__dredd_enabled_mutation(local_mutation_id + 0)) return ~(arg);\n  if (__dredd_enabled_mutation(local_mutation_id + 1)) return 0;\n  if (__dredd_enabled_mutation(local_mutation_id + 2)) return -1;\n  return arg;\n}\n\nstatic int __dredd_replace_expr_int_constant(int arg, int local_mutation_id) {\n  if (!__dredd_some_mutation_enabled) return arg;\n  if (__dredd_enabled_mutation(local_mutation_id + 0)) return ~(arg);\n  if (__dredd_enabled_mutation(local_mutation_id + 1)) return -(arg);\n  if (__dredd_enabled_mutation(local_mutation_id + 2)) return 0;\n  if (__dredd_enabled_mutation(local_mutation_id + 3)) return 1;\n  if (__dredd_enabled_mutation(local_mutation_id + 4)) return -1;\n  return arg;\n}\n\nstruct foo {\n  short x;\n  short y;\n  short z;\n};\n\nvoid baz() {\n  foo bar = {static_cast<short>(__dredd_replace_expr_int_one(1, 0)), (static_cast<short>(__dredd_replace_expr_int_constant(2, 3))), (((static_cast<short>(__dredd_replace_expr_int_constant(3, 8)))))};\n}\n"
    noopt := "// DREDD PRELUDE START\n// If this has been inserted at an inappropriate place in a source file,\n// declare a placeholder function with the following signature to\n// mandate where the prelude should be placed:\n//\n// void __dredd_prelude_start();\n//\n#include <atomic>\n#include <cinttypes>\n#include <cstddef>\n#include <fstream>\n#include <functional>\n#include <sstream>\n#include <string>\n\n\n#ifdef _MSC_VER\n#define thread_local __declspec(thread)\n#elif __APPLE__\n#define thread_local __thread\n#endif\n\nstatic thread_local bool __dredd_some_mutation_enabled = true;\nstatic bool __dredd_enabled_mutation(int local_mutation_id) {\n  static thread_local bool initialized = false;\n  static thread_local uint64_t enabled_bitset[1];\n  if (!initialized) {\n    bool some_mutation_enabled = false;\n    const char* dredd_environment_variable = std::getenv(\"DREDD_ENABLED_MUTATION\");\n    if (dredd_environment_variable != nullptr) {\n      std::string contents(dredd_environment_variable);\n      while (true) {\n        size_t pos = contents.find(\",\");\n        std::string token = (pos == std::string::npos ? contents : contents.substr(0, pos));\n        if (!token.empty()) {\n          int value = std::stoi(token);\n          int local_value = value - 0;\n          if (local_value >= 0 && local_value < 42) {\n            enabled_bitset[local_value / 64] |= (static_cast<uint64_t>(1) << (local_value % 64));\n            some_mutation_enabled = true;\n          }\n        }\n        if (pos == std::string::npos) {\n          break;\n        }\n        contents.erase(0, pos + 1);\n      }\n    }\n    initialized = true;\n    __dredd_some_mutation_enabled = some_mutation_enabled;\n  }\n  return (enabled_bitset[local_mutation_id / 64] & (static_cast<uint64_t>(1) << (local_mutation_id % 64))) != 0;\n}\n\nstatic int __dredd_replace_expr_int(int arg, int local_mutation_id) {\n  if (!__dredd_some_mutation_enabled) return arg;\n  if (__dredd_enabled_mutation(local_mutation_id + 0)) return !(arg);\n  if (__dredd_enabled_mutation(local_mutation_id + 1)) return ~(arg);\n  if (__dredd_enabled_mutation(local_mutation_id + 2)) return -(arg);\n  if (__dredd_enabled_mutation(local_mutation_id + 3)) return 0;\n  if (__dredd_enabled_mutation(local_mutation_id + 4)) return 1;\n  if (__dredd_enabled_mutation(local_mutation_id + 5)) return -1;\n  return arg;\n}\n\nstruct foo {\n  short x;\n  short y;\n  short z;\n};\n\nvoid baz() {\n  foo bar = {static_cast<short>(__dredd_replace_expr_int(1, 0)), static_cast<short>(__dredd_replace_expr_int((static_cast<short>(__dredd_replace_expr_int(2, 6))), 12)), static_cast<short>(__dredd_replace_expr_int((static_cast<short>(__dredd_replace_expr_int((static_cast<short>(__dredd_replace_expr_int((static_cast<short>(__dredd_replace_expr_int(3, 18))), 24))), 30))), 36))};\n}\n" }

#guard initializer_list_parenthesis_cc.ok

/-- test/single_file/initializers_outside_functions.cc -/
def initializers_outside_functions_cc : Case :=
  let src : Text := t!"int x = 1 + 2;\n\nnamespace {\n  int y = x + x;\n\n  class A {\n    int z = y + y;\n    void foo() {\n      class B {\n        int w = !x;\n      };\n    }\n  };\n}\n"
  { name := "initializers_outside_functions.cc", lang := cpp, src := src, ast :=
    .decl ⟨.tu, none⟩ [
     .decl ⟨.var ⟨4, false, [], [], false, false, false⟩, (some ⟨0, 13⟩)⟩ [
      ex src (.binary .add) (some .int) .plain 8 (some ⟨8, 13⟩) (fun f => { f with intVal := some 3, boolVal := some true, cxx11Const := true, opOff := some 10 }) [
       ex src .other (some .int) .lhs 8 (some ⟨8, 9⟩) (fun f => { f with intVal := some 1, boolVal := some true, cxx11Const := true }) [],
       ex src .other (some .int) .rhs 12 (some ⟨12, 13⟩) (fun f => { f with intVal := some 2, boolVal := some true, cxx11Const := true }) []]],
     .decl ⟨.other, (some ⟨16, 151⟩)⟩ [
      .decl ⟨.var ⟨34, false, [], [], false, false, false⟩, (some ⟨30, 43⟩)⟩ [
       ex src (.binary .add) (some .int) .plain 38 (some ⟨38, 43⟩) (fun f => { f with opOff := some 40 }) [
        ex src (.cast true false) (some .int) .lhs 38 (some ⟨38, 39⟩) id [
         ex src .other (some .int) .operand 38 (some ⟨38, 39⟩) (fun f => { f with lvalue := true }) []],
        ex src (.cast true false) (some .int) .rhs 42 (some ⟨42, 43⟩) id [
         ex src .other (some .int) .operand 42 (some ⟨42, 43⟩) (fun f => { f with lvalue := true }) []]]],
      .decl ⟨.other, (some ⟨48, 148⟩)⟩ [
       .decl ⟨.field false [], (some ⟨62, 75⟩)⟩ [
        ex src (.binary .add) (some .int) .plain 70 (some ⟨70, 75⟩) (fun f => { f with opOff := some 72 }) [
         ex src (.cast true false) (some .int) .lhs 70 (some ⟨70, 71⟩) id [
          ex src .other (some .int) .operand 70 (some ⟨70, 71⟩) (fun f => { f with lvalue := true }) []],
         ex src (.cast true false) (some .int) .rhs 74 (some ⟨74, 75⟩) id [
          ex src .other (some .int) .operand 74 (some ⟨74, 75⟩) (fun f => { f with lvalue := true }) []]]],
       .decl ⟨.func false none, (some ⟨81, 144⟩)⟩ [
        st src .compound .plain (some ⟨92, 144⟩) [
         st src .declStmt .plain (some ⟨100, 138⟩) [
          .decl ⟨.other, (some ⟨100, 137⟩)⟩ [
           .decl ⟨.field false [], (some ⟨118, 128⟩)⟩ [
            ex src (.cast true false) (some .int) .plain 126 (some ⟨126, 128⟩) id [
             ex src (.unary .lnot) (some .bool) .operand 126 (some ⟨126, 128⟩) (fun f => { f with opOff := some 126 }) [
              ex src (.cast true false) (some .bool) .operand 127 (some ⟨127, 128⟩) id [
               ex src (.cast true false) (some .int) .operand 127 (some ⟨127, 128⟩) id [
                ex src .other (some .int) .operand 127 (some ⟨127, 128⟩) (fun f => { f with lvalue := true }) []]]]]]]]]]]]]
    expected := "int x = 1 + 2;\n\nnamespace {\n  int y = x + x;\n\n  class A {\n    int z = y + y;\n    void foo() {\n      class B {\n        int w = !x;\n      };\n    }\n  };\n}\n"
    noopt := "int x = 1 + 2;\n\nnamespace {\n  int y = x + x;\n\n  class A {\n    int z = y + y;\n    void foo() {\n      class B {\n        int w = !x;\n      };\n    }\n  };\n}\n" }

#guard initializers_outside_functions_cc.ok

end Dredd.Tests
