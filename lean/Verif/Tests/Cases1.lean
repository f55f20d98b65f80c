/-
Tests, not proofs: files of /repo/test/single_file, part 1.  Each case has the source, the
syntax tree of the source and the output that the repository expects for it, with and
without optimisations.  The trees were made by a program that parses the sources.
-/
import Verif.Tests.Case

namespace Dredd.Tests

/-- test/single_file/array_with_named_constant_size_rewrite.cc -/
def array_with_named_constant_size_rewrite_cc : Case :=
  let src : Text := t!"int a() {\n  const int b = 2;\n  int c[b + b]{};\n  return b;\n}\n"
  { name := "array_with_named_constant_size_rewrite.cc", lang := cpp, src := src, ast :=
    .decl ⟨.tu, none⟩ [
     .decl ⟨.func false none, (some ⟨0, 60⟩)⟩ [
      st src .compound .plain (some ⟨8, 60⟩) [
       st src .declStmt .plain (some ⟨12, 28⟩) [
        .decl ⟨.var ⟨22, false, [], [], false, false, false⟩, (some ⟨12, 27⟩)⟩ [
         ex src .other (some .int) .plain 26 (some ⟨26, 27⟩) (fun f => { f with intVal := some 2, boolVal := some true, cxx11Const := true }) []]],
       st src .declStmt .plain (some ⟨31, 46⟩) [
        .decl ⟨.var ⟨35, true, [⟨1, (some ⟨37, 42⟩), some ⟨64, false, 4⟩⟩], [], false, false, false⟩, (some ⟨31, 45⟩)⟩ [
         .other .constArrayType [
          ex src (.cast true false) (some .ulong) .plain 37 (some ⟨37, 42⟩) (fun f => { f with intVal := some 4, boolVal := some true, cxx11Const := true }) [
           ex src (.binary .add) (some .int) .operand 37 (some ⟨37, 42⟩) (fun f => { f with intVal := some 4, boolVal := some true, cxx11Const := true, opOff := some 39 }) [
            ex src (.cast true false) (some .int) .lhs 37 (some ⟨37, 38⟩) (fun f => { f with intVal := some 2, boolVal := some true, cxx11Const := true }) [
             ex src .other (some .int) .operand 37 (some ⟨37, 38⟩) (fun f => { f with lvalue := true, const := true, intVal := some 2, boolVal := some true, cxx11Const := true }) []],
            ex src (.cast true false) (some .int) .rhs 41 (some ⟨41, 42⟩) (fun f => { f with intVal := some 2, boolVal := some true, cxx11Const := true }) [
             ex src .other (some .int) .operand 41 (some ⟨41, 42⟩) (fun f => { f with lvalue := true, const := true, intVal := some 2, boolVal := some true, cxx11Const := true }) []]]]],
         ex src .initList none .plain 43 (some ⟨43, 45⟩) id []]],
       st src .other .plain (some ⟨49, 57⟩) [
        ex src (.cast true false) (some .int) .plain 56 (some ⟨56, 57⟩) (fun f => { f with intVal := some 2, boolVal := some true, cxx11Const := true }) [
         ex src .other (some .int) .operand 56 (some ⟨56, 57⟩) (fun f => { f with lvalue := true, const := true, intVal := some 2, boolVal := some true, cxx11Const := true }) []]]]]]
    expected := "// DREDD PRELUDE START\n// If this has been inserted at an inappropriate place in a source file,\n// declare a placeholder function with the following signature to\n// mandate where the prelude should be placed:\n//\n// void __dredd_prelude_start();\n//\n#include <atomic>\n#include <cinttypes>\n#include <cstddef>\n#include <fstream>\n#include <functional>\n#include <sstream>\n#include <string>\n\n\n#ifdef _MSC_VER\n#define thread_local __declspec(thread)\n#elif __APPLE__\n#define thread_local __thread\n#endif\n\nstatic thread_local bool __dredd_some_mutation_enabled = true;\nstatic bool __dredd_enabled_mutation(int local_mutation_id) {\n  static thread_local bool initialized = false;\n  static thread_local uint64_t enabled_bitset[1];\n  if (!initialized) {\n    bool some_mutation_enabled = false;\n    const char* dredd_environment_variable = std::getenv(\"DREDD_ENABLED_MUTATION\");\n    if (dredd_environment_variable != nullptr) {\n      std::string contents(dredd_environment_variable);\n      while (true) {\n        size_t pos = contents.find(\",\");\n        std::string token = (pos == std::string::npos ? contents : contents.substr(0, pos));\n        if (!token.empty()) {\n          int value = std::stoi(token);\n          int local_value = value - 0;\n          if (local_value >= 0 && local_value < 11) {\n            enabled_bitset[local_value / 64] |= (static_cast<uint64_t>(1) << (local_value % 64));\n            some_mutation_enabled = true;\n          }\n        }\n        if (pos == std::string::npos) {\n          break;\n        }\n        contents.erase(0, pos + 1);\n      }\n    }\n    initialized = true;\n    __dredd_some_mutation_enabled = some_mutation_enabled;\n  }\n  return (enabled_bitset[local_mutation_id / 64] & (static_cast<uint64_t>(1) << (local_mutation_id % 64))) != 0;\n}\n\nstatic int __dredd_replace_expr_int_constant(int arg, int local_mutation_id) {\n  if (!__dredd_some_mutation_enabled) return arg;\n  if (__dredd_enabled_mutation(local_mutation_id + 0)) return ~(arg);\n  if (__dredd_enabled_mutation(local_mutation_id + 1)) return -(arg);\n  if (__dredd_enabled_mutation(local_mutation_id + 2)) return 0;\n  if (__dredd_enabled_mutation(local_mutation_id + 3)) return 1;\n  if (__dredd_enabled_mutation(local_mutation_id + 4)) return -1;\n  return arg;\n}\n\nint a() {\n  const int b = __dredd_replace_expr_int_constant(2, 0);\n  int c[4]{};\n  if (!__dredd_enabled_mutation(10)) { return __dredd_replace_expr_int_constant(b, 5); }\n}\n"
    noopt := "// DREDD PRELUDE START\n// If this has been inserted at an inappropriate place in a source file,\n// declare a placeholder function with the following signature to\n// mandate where the prelude should be placed:\n//\n// void __dredd_prelude_start();\n//\n#include <atomic>\n#include <cinttypes>\n#include <cstddef>\n#include <fstream>\n#include <functional>\n#include <sstream>\n#include <string>\n\n\n#ifdef _MSC_VER\n#define thread_local __declspec(thread)\n#elif __APPLE__\n#define thread_local __thread\n#endif\n\nstatic thread_local bool __dredd_some_mutation_enabled = true;\nstatic bool __dredd_enabled_mutation(int local_mutation_id) {\n  static thread_local bool initialized = false;\n  static thread_local uint64_t enabled_bitset[1];\n  if (!initialized) {\n    bool some_mutation_enabled = false;\n    const char* dredd_environment_variable = std::getenv(\"DREDD_ENABLED_MUTATION\");\n    if (dredd_environment_variable != nullptr) {\n      std::string contents(dredd_environment_variable);\n      while (true) {\n        size_t pos = contents.find(\",\");\n        std::string token = (pos == std::string::npos ? contents : contents.substr(0, pos));\n        if (!token.empty()) {\n          int value = std::stoi(token);\n          int local_value = value - 0;\n          if (local_value >= 0 && local_value < 13) {\n            enabled_bitset[local_value / 64] |= (static_cast<uint64_t>(1) << (local_value % 64));\n            some_mutation_enabled = true;\n          }\n        }\n        if (pos == std::string::npos) {\n          break;\n        }\n        contents.erase(0, pos + 1);\n      }\n    }\n    initialized = true;\n    __dredd_some_mutation_enabled = some_mutation_enabled;\n  }\n  return (enabled_bitset[local_mutation_id / 64] & (static_cast<uint64_t>(1) << (local_mutation_id % 64))) != 0;\n}\n\nstatic int __dredd_replace_expr_int(int arg, int local_mutation_id) {\n  if (!__dredd_some_mutation_enabled) return arg;\n  if (__dredd_enabled_mutation(local_mutation_id + 0)) return !(arg);\n  if (__dredd_enabled_mutation(local_mutation_id + 1)) return ~(arg);\n  if (__dredd_enabled_mutation(local_mutation_id + 2)) return -(arg);\n  if (__dredd_enabled_mutation(local_mutation_id + 3)) return 0;\n  if (__dredd_enabled_mutation(local_mutation_id + 4)) return 1;\n  if (__dredd_enabled_mutation(local_mutation_id + 5)) return -1;\n  return arg;\n}\n\nint a() {\n  const int b = __dredd_replace_expr_int(2, 0);\n  int c[4]{};\n  if (!__dredd_enabled_mutation(12)) { return __dredd_replace_expr_int(b, 6); }\n}\n" }

#guard array_with_named_constant_size_rewrite_cc.ok

/-- test/single_file/array_with_named_constant_size_rewrite2.cc -/
def array_with_named_constant_size_rewrite2_cc : Case :=
  let src : Text := t!"int a() {\n  const int b = 2;\n  int c[b + b];\n  return b;\n}\n"
  { name := "array_with_named_constant_size_rewrite2.cc", lang := cpp, src := src, ast :=
    .decl ⟨.tu, none⟩ [
     .decl ⟨.func false none, (some ⟨0, 58⟩)⟩ [
      st src .compound .plain (some ⟨8, 58⟩) [
       st src .declStmt .plain (some ⟨12, 28⟩) [
        .decl ⟨.var ⟨22, false, [], [], false, false, false⟩, (some ⟨12, 27⟩)⟩ [
         ex src .other (some .int) .plain 26 (some ⟨26, 27⟩) (fun f => { f with intVal := some 2, boolVal := some true, cxx11Const := true }) []]],
       st src .declStmt .plain (some ⟨31, 44⟩) [
        .decl ⟨.var ⟨35, true, [⟨1, (some ⟨37, 42⟩), some ⟨64, false, 4⟩⟩], [], false, false, false⟩, (some ⟨31, 43⟩)⟩ [
         .other .constArrayType [
          ex src (.cast true false) (some .ulong) .plain 37 (some ⟨37, 42⟩) (fun f => { f with intVal := some 4, boolVal := some true, cxx11Const := true }) [
           ex src (.binary .add) (some .int) .operand 37 (some ⟨37, 42⟩) (fun f => { f with intVal := some 4, boolVal := some true, cxx11Const := true, opOff := some 39 }) [
            ex src (.cast true false) (some .int) .lhs 37 (some ⟨37, 38⟩) (fun f => { f with intVal := some 2, boolVal := some true, cxx11Const := true }) [
             ex src .other (some .int) .operand 37 (some ⟨37, 38⟩) (fun f => { f with lvalue := true, const := true, intVal := some 2, boolVal := some true, cxx11Const := true }) []],
            ex src (.cast true false) (some .int) .rhs 41 (some ⟨41, 42⟩) (fun f => { f with intVal := some 2, boolVal := some true, cxx11Const := true }) [
             ex src .other (some .int) .operand 41 (some ⟨41, 42⟩) (fun f => { f with lvalue := true, const := true, intVal := some 2, boolVal := some true, cxx11Const := true }) []]]]]]],
       st src .other .plain (some ⟨47, 55⟩) [
        ex src (.cast true false) (some .int) .plain 54 (some ⟨54, 55⟩) (fun f => { f with intVal := some 2, boolVal := some true, cxx11Const := true }) [
         ex src .other (some .int) .operand 54 (some ⟨54, 55⟩) (fun f => { f with lvalue := true, const := true, intVal := some 2, boolVal := some true, cxx11Const := true }) []]]]]]
    expected := "// DREDD PRELUDE START\n// If this has been inserted at an inappropriate place in a source file,\n// declare a placeholder function with the following signature to\n// mandate where the prelude should be placed:\n//\n// void __dredd_prelude_start();\n//\n#include <atomic>\n#include <cinttypes>\n#include <cstddef>\n#include <fstream>\n#include <functional>\n#include <sstream>\n#include <string>\n\n\n#ifdef _MSC_VER\n#define thread_local __declspec(thread)\n#elif __APPLE__\n#define thread_local __thread\n#endif\n\nstatic thread_local bool __dredd_some_mutation_enabled = true;\nstatic bool __dredd_enabled_mutation(int local_mutation_id) {\n  static thread_local bool initialized = false;\n  static thread_local uint64_t enabled_bitset[1];\n  if (!initialized) {\n    bool some_mutation_enabled = false;\n    const char* dredd_environment_variable = std::getenv(\"DREDD_ENABLED_MUTATION\");\n    if (dredd_environment_variable != nullptr) {\n      std::string contents(dredd_environment_variable);\n      while (true) {\n        size_t pos = contents.find(\",\");\n        std::string token = (pos == std::string::npos ? contents : contents.substr(0, pos));\n        if (!token.empty()) {\n          int value = std::stoi(token);\n          int local_value = value - 0;\n          if (local_value >= 0 && local_value < 11) {\n            enabled_bitset[local_value / 64] |= (static_cast<uint64_t>(1) << (local_value % 64));\n            some_mutation_enabled = true;\n          }\n        }\n        if (pos == std::string::npos) {\n          break;\n        }\n        contents.erase(0, pos + 1);\n      }\n    }\n    initialized = true;\n    __dredd_some_mutation_enabled = some_mutation_enabled;\n  }\n  return (enabled_bitset[local_mutation_id / 64] & (static_cast<uint64_t>(1) << (local_mutation_id % 64))) != 0;\n}\n\nstatic int __dredd_replace_expr_int_constant(int arg, int local_mutation_id) {\n  if (!__dredd_some_mutation_enabled) return arg;\n  if (__dredd_enabled_mutation(local_mutation_id + 0)) return ~(arg);\n  if (__dredd_enabled_mutation(local_mutation_id + 1)) return -(arg);\n  if (__dredd_enabled_mutation(local_mutation_id + 2)) return 0;\n  if (__dredd_enabled_mutation(local_mutation_id + 3)) return 1;\n  if (__dredd_enabled_mutation(local_mutation_id + 4)) return -1;\n  return arg;\n}\n\nint a() {\n  const int b = __dredd_replace_expr_int_constant(2, 0);\n  int c[4];\n  if (!__dredd_enabled_mutation(10)) { return __dredd_replace_expr_int_constant(b, 5); }\n}\n"
    noopt := "// DREDD PRELUDE START\n// If this has been inserted at an inappropriate place in a source file,\n// declare a placeholder function with the following signature to\n// mandate where the prelude should be placed:\n//\n// void __dredd_prelude_start();\n//\n#include <atomic>\n#include <cinttypes>\n#include <cstddef>\n#include <fstream>\n#include <functional>\n#include <sstream>\n#include <string>\n\n\n#ifdef _MSC_VER\n#define thread_local __declspec(thread)\n#elif __APPLE__\n#define thread_local __thread\n#endif\n\nstatic thread_local bool __dredd_some_mutation_enabled = true;\nstatic bool __dredd_enabled_mutation(int local_mutation_id) {\n  static thread_local bool initialized = false;\n  static thread_local uint64_t enabled_bitset[1];\n  if (!initialized) {\n    bool some_mutation_enabled = false;\n    const char* dredd_environment_variable = std::getenv(\"DREDD_ENABLED_MUTATION\");\n    if (dredd_environment_variable != nullptr) {\n      std::string contents(dredd_environment_variable);\n      while (true) {\n        size_t pos = contents.find(\",\");\n        std::string token = (pos == std::string::npos ? contents : contents.substr(0, pos));\n        if (!token.empty()) {\n          int value = std::stoi(token);\n          int local_value = value - 0;\n          if (local_value >= 0 && local_value < 13) {\n            enabled_bitset[local_value / 64] |= (static_cast<uint64_t>(1) << (local_value % 64));\n            some_mutation_enabled = true;\n          }\n        }\n        if (pos == std::string::npos) {\n          break;\n        }\n        contents.erase(0, pos + 1);\n      }\n    }\n    initialized = true;\n    __dredd_some_mutation_enabled = some_mutation_enabled;\n  }\n  return (enabled_bitset[local_mutation_id / 64] & (static_cast<uint64_t>(1) << (local_mutation_id % 64))) != 0;\n}\n\nstatic int __dredd_replace_expr_int(int arg, int local_mutation_id) {\n  if (!__dredd_some_mutation_enabled) return arg;\n  if (__dredd_enabled_mutation(local_mutation_id + 0)) return !(arg);\n  if (__dredd_enabled_mutation(local_mutation_id + 1)) return ~(arg);\n  if (__dredd_enabled_mutation(local_mutation_id + 2)) return -(arg);\n  if (__dredd_enabled_mutation(local_mutation_id + 3)) return 0;\n  if (__dredd_enabled_mutation(local_mutation_id + 4)) return 1;\n  if (__dredd_enabled_mutation(local_mutation_id + 5)) return -1;\n  return arg;\n}\n\nint a() {\n  const int b = __dredd_replace_expr_int(2, 0);\n  int c[4];\n  if (!__dredd_enabled_mutation(12)) { return __dredd_replace_expr_int(b, 6); }\n}\n" }

#guard array_with_named_constant_size_rewrite2_cc.ok

/-- test/single_file/assign_null.c -/
def assign_null_c : Case :=
  let src : Text := t!"int main() {\n    int* x = 0;\n}\n"
  { name := "assign_null.c", lang := c, src := src, ast :=
    .decl ⟨.tu, none⟩ [
     .decl ⟨.func false none, (some ⟨0, 30⟩)⟩ [
      st src .compound .plain (some ⟨11, 30⟩) [
       st src .declStmt .plain (some ⟨17, 28⟩) [
        .decl ⟨.var ⟨22, false, [], [], false, false, false⟩, (some ⟨17, 27⟩)⟩ [
         ex src (.cast true false) none .plain 26 (some ⟨26, 27⟩) (fun f => { f with anyPointer := true, pointer := true, nullConst := true }) [
          ex src .other (some .int) .operand 26 (some ⟨26, 27⟩) (fun f => { f with intVal := some 0, boolVal := some false, nullConst := true }) []]]]]]]
    expected := "int main() {\n    int* x = 0;\n}\n"
    noopt := "int main() {\n    int* x = 0;\n}\n" }

#guard assign_null_c.ok

/-- test/single_file/assign_null.cc -/
def assign_null_cc : Case :=
  let src : Text := t!"int main() {\n    int* x = 0;\n}\n"
  { name := "assign_null.cc", lang := cpp, src := src, ast :=
    .decl ⟨.tu, none⟩ [
     .decl ⟨.func false none, (some ⟨0, 30⟩)⟩ [
      st src .compound .plain (some ⟨11, 30⟩) [
       st src .declStmt .plain (some ⟨17, 28⟩) [
        .decl ⟨.var ⟨22, false, [], [], false, false, false⟩, (some ⟨17, 27⟩)⟩ [
         ex src (.cast true false) none .plain 26 (some ⟨26, 27⟩) (fun f => { f with anyPointer := true, pointer := true, nullConst := true }) [
          ex src .other (some .int) .operand 26 (some ⟨26, 27⟩) (fun f => { f with intVal := some 0, boolVal := some false, cxx11Const := true, nullConst := true }) []]]]]]]
    expected := "int main() {\n    int* x = 0;\n}\n"
    noopt := "int main() {\n    int* x = 0;\n}\n" }

#guard assign_null_cc.ok

/-- test/single_file/basic.c -/
def basic_c : Case :=
  let src : Text := t!"int main() {\n  return 0;\n}\n"
  { name := "basic.c", lang := c, src := src, ast :=
    .decl ⟨.tu, none⟩ [
     .decl ⟨.func false none, (some ⟨0, 26⟩)⟩ [
      st src .compound .plain (some ⟨11, 26⟩) [
       st src .other .plain (some ⟨15, 23⟩) [
        ex src .other (some .int) .plain 22 (some ⟨22, 23⟩) (fun f => { f with intVal := some 0, boolVal := some false, nullConst := true }) []]]]]
    expected := "// DREDD PRELUDE START\n// If this has been inserted at an inappropriate place in a source file,\n// declare a placeholder function with the following signature to\n// mandate where the prelude should be placed:\n//\n// void __dredd_prelude_start();\n//\n#include <inttypes.h>\n#include <stdatomic.h>\n#include <stdbool.h>\n#include <stdio.h>\n#include <stdlib.h>\n#include <string.h>\n\n#ifdef _MSC_VER\n#define thread_local __declspec(thread)\n#elif __APPLE__\n#define thread_local __thread\n#else\n#include <threads.h>\n#endif\n\nstatic thread_local int __dredd_some_mutation_enabled = 1;\nstatic bool __dredd_enabled_mutation(int local_mutation_id) {\n  static thread_local int initialized = 0;\n  static thread_local uint64_t enabled_bitset[1];\n  if (!initialized) {\n    int some_mutation_enabled = 0;\n    const char* dredd_environment_variable = getenv(\"DREDD_ENABLED_MUTATION\");\n    if (dredd_environment_variable) {\n      char* temp = malloc(strlen(dredd_environment_variable) + 1);\n      strcpy(temp, dredd_environment_variable);\n      char* token;\n      token = strtok(temp, \",\");\n      while(token) {\n        int value = atoi(token);\n        int local_value = value - 0;\n        if (local_value >= 0 && local_value < 3) {\n          enabled_bitset[local_value / 64] |= ((uint64_t) 1 << (local_value % 64));\n          some_mutation_enabled = 1;\n        }\n        token = strtok(NULL, \",\");\n      }\n      free(temp);\n    }\n    initialized = 1;\n    __dredd_some_mutation_enabled = some_mutation_enabled;\n  }\n  return enabled_bitset[local_mutation_id / 64] & ((uint64_t) 1 << (local_mutation_id % 64));\n}\n\nstatic int __dredd_replace_expr_int_zero(int arg, int local_mutation_id) {\n  if (!__dredd_some_mutation_enabled) return arg;\n  if (__dredd_enabled_mutation(local_mutation_id + 0)) return 1;\n  if (__dredd_enabled_mutation(local_mutation_id + 1)) return -1;\n  return arg;\n}\n\nint main() {\n  if (!__dredd_enabled_mutation(2)) { return __dredd_replace_expr_int_zero(0, 0); }\n}\n"
    noopt := "// DREDD PRELUDE START\n// If this has been inserted at an inappropriate place in a source file,\n// declare a placeholder function with the following signature to\n// mandate where the prelude should be placed:\n//\n// void __dredd_prelude_start();\n//\n#include <inttypes.h>\n#include <stdatomic.h>\n#include <stdbool.h>\n#include <stdio.h>\n#include <stdlib.h>\n#include <string.h>\n\n#ifdef _MSC_VER\n#define thread_local __declspec(thread)\n#elif __APPLE__\n#define thread_local __thread\n#else\n#include <threads.h>\n#endif\n\nstatic thread_local int __dredd_some_mutation_enabled = 1;\nstatic bool __dredd_enabled_mutation(int local_mutation_id) {\n  static thread_local int initialized = 0;\n  static thread_local uint64_t enabled_bitset[1];\n  if (!initialized) {\n    int some_mutation_enabled = 0;\n    const char* dredd_environment_variable = getenv(\"DREDD_ENABLED_MUTATION\");\n    if (dredd_environment_variable) {\n      char* temp = malloc(strlen(dredd_environment_variable) + 1);\n      strcpy(temp, dredd_environment_variable);\n      char* token;\n      token = strtok(temp, \",\");\n      while(token) {\n        int value = atoi(token);\n        int local_value = value - 0;\n        if (local_value >= 0 && local_value < 7) {\n          enabled_bitset[local_value / 64] |= ((uint64_t) 1 << (local_value % 64));\n          some_mutation_enabled = 1;\n        }\n        token = strtok(NULL, \",\");\n      }\n      free(temp);\n    }\n    initialized = 1;\n    __dredd_some_mutation_enabled = some_mutation_enabled;\n  }\n  return enabled_bitset[local_mutation_id / 64] & ((uint64_t) 1 << (local_mutation_id % 64));\n}\n\nstatic int __dredd_replace_expr_int(int arg, int local_mutation_id) {\n  if (!__dredd_some_mutation_enabled) return arg;\n  if (__dredd_enabled_mutation(local_mutation_id + 0)) return !(arg);\n  if (__dredd_enabled_mutation(local_mutation_id + 1)) return ~(arg);\n  if (__dredd_enabled_mutation(local_mutation_id + 2)) return -(arg);\n  if (__dredd_enabled_mutation(local_mutation_id + 3)) return 0;\n  if (__dredd_enabled_mutation(local_mutation_id + 4)) return 1;\n  if (__dredd_enabled_mutation(local_mutation_id + 5)) return -1;\n  return arg;\n}\n\nint main() {\n  if (!__dredd_enabled_mutation(6)) { return __dredd_replace_expr_int(0, 0); }\n}\n" }

#guard basic_c.ok

/-- test/single_file/basic.cc -/
def basic_cc : Case :=
  let src : Text := t!"int main() {\n  return 0;\n}\n"
  { name := "basic.cc", lang := cpp, src := src, ast :=
    .decl ⟨.tu, none⟩ [
     .decl ⟨.func false none, (some ⟨0, 26⟩)⟩ [
      st src .compound .plain (some ⟨11, 26⟩) [
       st src .other .plain (some ⟨15, 23⟩) [
        ex src .other (some .int) .plain 22 (some ⟨22, 23⟩) (fun f => { f with intVal := some 0, boolVal := some false, cxx11Const := true, nullConst := true }) []]]]]
    expected := "// DREDD PRELUDE START\n// If this has been inserted at an inappropriate place in a source file,\n// declare a placeholder function with the following signature to\n// mandate where the prelude should be placed:\n//\n// void __dredd_prelude_start();\n//\n#include <atomic>\n#include <cinttypes>\n#include <cstddef>\n#include <fstream>\n#include <functional>\n#include <sstream>\n#include <string>\n\n\n#ifdef _MSC_VER\n#define thread_local __declspec(thread)\n#elif __APPLE__\n#define thread_local __thread\n#endif\n\nstatic thread_local bool __dredd_some_mutation_enabled = true;\nstatic bool __dredd_enabled_mutation(int local_mutation_id) {\n  static thread_local bool initialized = false;\n  static thread_local uint64_t enabled_bitset[1];\n  if (!initialized) {\n    bool some_mutation_enabled = false;\n    const char* dredd_environment_variable = std::getenv(\"DREDD_ENABLED_MUTATION\");\n    if (dredd_environment_variable != nullptr) {\n      std::string contents(dredd_environment_variable);\n      while (true) {\n        size_t pos = contents.find(\",\");\n        std::string token = (pos == std::string::npos ? contents : contents.substr(0, pos));\n        if (!token.empty()) {\n          int value = std::stoi(token);\n          int local_value = value - 0;\n          if (local_value >= 0 && local_value < 3) {\n            enabled_bitset[local_value / 64] |= (static_cast<uint64_t>(1) << (local_value % 64));\n            some_mutation_enabled = true;\n          }\n        }\n        if (pos == std::string::npos) {\n          break;\n        }\n        contents.erase(0, pos + 1);\n      }\n    }\n    initialized = true;\n    __dredd_some_mutation_enabled = some_mutation_enabled;\n  }\n  return (enabled_bitset[local_mutation_id / 64] & (static_cast<uint64_t>(1) << (local_mutation_id % 64))) != 0;\n}\n\nstatic int __dredd_replace_expr_int_zero(int arg, int local_mutation_id) {\n  if (!__dredd_some_mutation_enabled) return arg;\n  if (__dredd_enabled_mutation(local_mutation_id + 0)) return 1;\n  if (__dredd_enabled_mutation(local_mutation_id + 1)) return -1;\n  return arg;\n}\n\nint main() {\n  if (!__dredd_enabled_mutation(2)) { return __dredd_replace_expr_int_zero(0, 0); }\n}\n"
    noopt := "// DREDD PRELUDE START\n// If this has been inserted at an inappropriate place in a source file,\n// declare a placeholder function with the following signature to\n// mandate where the prelude should be placed:\n//\n// void __dredd_prelude_start();\n//\n#include <atomic>\n#include <cinttypes>\n#include <cstddef>\n#include <fstream>\n#include <functional>\n#include <sstream>\n#include <string>\n\n\n#ifdef _MSC_VER\n#define thread_local __declspec(thread)\n#elif __APPLE__\n#define thread_local __thread\n#endif\n\nstatic thread_local bool __dredd_some_mutation_enabled = true;\nstatic bool __dredd_enabled_mutation(int local_mutation_id) {\n  static thread_local bool initialized = false;\n  static thread_local uint64_t enabled_bitset[1];\n  if (!initialized) {\n    bool some_mutation_enabled = false;\n    const char* dredd_environment_variable = std::getenv(\"DREDD_ENABLED_MUTATION\");\n    if (dredd_environment_variable != nullptr) {\n      std::string contents(dredd_environment_variable);\n      while (true) {\n        size_t pos = contents.find(\",\");\n        std::string token = (pos == std::string::npos ? contents : contents.substr(0, pos));\n        if (!token.empty()) {\n          int value = std::stoi(token);\n          int local_value = value - 0;\n          if (local_value >= 0 && local_value < 7) {\n            enabled_bitset[local_value / 64] |= (static_cast<uint64_t>(1) << (local_value % 64));\n            some_mutation_enabled = true;\n          }\n        }\n        if (pos == std::string::npos) {\n          break;\n        }\n        contents.erase(0, pos + 1);\n      }\n    }\n    initialized = true;\n    __dredd_some_mutation_enabled = some_mutation_enabled;\n  }\n  return (enabled_bitset[local_mutation_id / 64] & (static_cast<uint64_t>(1) << (local_mutation_id % 64))) != 0;\n}\n\nstatic int __dredd_replace_expr_int(int arg, int local_mutation_id) {\n  if (!__dredd_some_mutation_enabled) return arg;\n  if (__dredd_enabled_mutation(local_mutation_id + 0)) return !(arg);\n  if (__dredd_enabled_mutation(local_mutation_id + 1)) return ~(arg);\n  if (__dredd_enabled_mutation(local_mutation_id + 2)) return -(arg);\n  if (__dredd_enabled_mutation(local_mutation_id + 3)) return 0;\n  if (__dredd_enabled_mutation(local_mutation_id + 4)) return 1;\n  if (__dredd_enabled_mutation(local_mutation_id + 5)) return -1;\n  return arg;\n}\n\nint main() {\n  if (!__dredd_enabled_mutation(6)) { return __dredd_replace_expr_int(0, 0); }\n}\n" }

#guard basic_cc.ok

/-- test/single_file/binary_long_long_and_long_name_clash.c -/
def binary_long_long_and_long_name_clash_c : Case :=
  let src : Text := t!"int main() {\n    5LL && 4L;\n    4L && 5LL;\n}\n"
  { name := "binary_long_long_and_long_name_clash.c", lang := c, src := src, ast :=
    .decl ⟨.tu, none⟩ [
     .decl ⟨.func false none, (some ⟨0, 44⟩)⟩ [
      st src .compound .plain (some ⟨11, 44⟩) [
       ex src (.binary .land) (some .int) .plain 17 (some ⟨17, 26⟩) (fun f => { f with intVal := some 1, boolVal := some true, opOff := some 21 }) [
        ex src .other (some .longlong) .lhs 17 (some ⟨17, 20⟩) (fun f => { f with intVal := some 5, boolVal := some true }) [],
        ex src .other (some .long) .rhs 24 (some ⟨24, 26⟩) (fun f => { f with intVal := some 4, boolVal := some true }) []],
       ex src (.binary .land) (some .int) .plain 32 (some ⟨32, 41⟩) (fun f => { f with intVal := some 1, boolVal := some true, opOff := some 35 }) [
        ex src .other (some .long) .lhs 32 (some ⟨32, 34⟩) (fun f => { f with intVal := some 4, boolVal := some true }) [],
        ex src .other (some .longlong) .rhs 38 (some ⟨38, 41⟩) (fun f => { f with intVal := some 5, boolVal := some true }) []]]]]
    expected := "int main() {\n    5LL && 4L;\n    4L && 5LL;\n}\n"
    noopt := "// DREDD PRELUDE START\n// If this has been inserted at an inappropriate place in a source file,\n// declare a placeholder function with the following signature to\n// mandate where the prelude should be placed:\n//\n// void __dredd_prelude_start();\n//\n#include <inttypes.h>\n#include <stdatomic.h>\n#include <stdbool.h>\n#include <stdio.h>\n#include <stdlib.h>\n#include <string.h>\n\n#ifdef _MSC_VER\n#define thread_local __declspec(thread)\n#elif __APPLE__\n#define thread_local __thread\n#else\n#include <threads.h>\n#endif\n\nstatic thread_local int __dredd_some_mutation_enabled = 1;\nstatic bool __dredd_enabled_mutation(int local_mutation_id) {\n  static thread_local int initialized = 0;\n  static thread_local uint64_t enabled_bitset[1];\n  if (!initialized) {\n    int some_mutation_enabled = 0;\n    const char* dredd_environment_variable = getenv(\"DREDD_ENABLED_MUTATION\");\n    if (dredd_environment_variable) {\n      char* temp = malloc(strlen(dredd_environment_variable) + 1);\n      strcpy(temp, dredd_environment_variable);\n      char* token;\n      token = strtok(temp, \",\");\n      while(token) {\n        int value = atoi(token);\n        int local_value = value - 0;\n        if (local_value >= 0 && local_value < 44) {\n          enabled_bitset[local_value / 64] |= ((uint64_t) 1 << (local_value % 64));\n          some_mutation_enabled = 1;\n        }\n        token = strtok(NULL, \",\");\n      }\n      free(temp);\n    }\n    initialized = 1;\n    __dredd_some_mutation_enabled = some_mutation_enabled;\n  }\n  return enabled_bitset[local_mutation_id / 64] & ((uint64_t) 1 << (local_mutation_id % 64));\n}\n\nstatic long long __dredd_replace_expr_long_long(long long arg, int local_mutation_id) {\n  if (!__dredd_some_mutation_enabled) return arg;\n  if (__dredd_enabled_mutation(local_mutation_id + 0)) return !(arg);\n  if (__dredd_enabled_mutation(local_mutation_id + 1)) return ~(arg);\n  if (__dredd_enabled_mutation(local_mutation_id + 2)) return -(arg);\n  if (__dredd_enabled_mutation(local_mutation_id + 3)) return 0;\n  if (__dredd_enabled_mutation(local_mutation_id + 4)) return 1;\n  if (__dredd_enabled_mutation(local_mutation_id + 5)) return -1;\n  return arg;\n}\n\nstatic long long __dredd_replace_binary_operator_LAnd_arg1_long_long_arg2_long_lhs(long long arg, int local_mutation_id) {\n  if (!__dredd_some_mutation_enabled) return arg;\n  if (__dredd_enabled_mutation(local_mutation_id + 0)) return !arg;\n  if (__dredd_enabled_mutation(local_mutation_id + 2)) return 1;\n  return arg;\n}\nstatic long long __dredd_replace_binary_operator_LAnd_arg1_long_arg2_long_long_rhs(long long arg, int local_mutation_id) {\n  if (!__dredd_some_mutation_enabled) return arg;\n  if (__dredd_enabled_mutation(local_mutation_id + 0)) return !arg;\n  if (__dredd_enabled_mutation(local_mutation_id + 1)) return 1;\n  return arg;\n}\nstatic long __dredd_replace_expr_long(long arg, int local_mutation_id) {\n  if (!__dredd_some_mutation_enabled) return arg;\n  if (__dredd_enabled_mutation(local_mutation_id + 0)) return !(arg);\n  if (__dredd_enabled_mutation(local_mutation_id + 1)) return ~(arg);\n  if (__dredd_enabled_mutation(local_mutation_id + 2)) return -(arg);\n  if (__dredd_enabled_mutation(local_mutation_id + 3)) return 0;\n  if (__dredd_enabled_mutation(local_mutation_id + 4)) return 1;\n  if (__dredd_enabled_mutation(local_mutation_id + 5)) return -1;\n  return arg;\n}\n\nstatic long __dredd_replace_binary_operator_LAnd_arg1_long_long_arg2_long_rhs(long arg, int local_mutation_id) {\n  if (!__dredd_some_mutation_enabled) return arg;\n  if (__dredd_enabled_mutation(local_mutation_id + 0)) return !arg;\n  if (__dredd_enabled_mutation(local_mutation_id + 1)) return 1;\n  return arg;\n}\nstatic long __dredd_replace_binary_operator_LAnd_arg1_long_arg2_long_long_lhs(long arg, int local_mutation_id) {\n  if (!__dredd_some_mutation_enabled) return arg;\n  if (__dredd_enabled_mutation(local_mutation_id + 0)) return !arg;\n  if (__dredd_enabled_mutation(local_mutation_id + 2)) return 1;\n  return arg;\n}\nstatic int __dredd_replace_expr_int(int arg, int local_mutation_id) {\n  if (!__dredd_some_mutation_enabled) return arg;\n  if (__dredd_enabled_mutation(local_mutation_id + 0)) return !(arg);\n  if (__dredd_enabled_mutation(local_mutation_id + 1)) return ~(arg);\n  if (__dredd_enabled_mutation(local_mutation_id + 2)) return -(arg);\n  if (__dredd_enabled_mutation(local_mutation_id + 3)) return 0;\n  if (__dredd_enabled_mutation(local_mutation_id + 4)) return 1;\n  if (__dredd_enabled_mutation(local_mutation_id + 5)) return -1;\n  return arg;\n}\n\nstatic int __dredd_replace_binary_operator_LAnd_arg1_long_long_arg2_long_outer(int arg, int local_mutation_id) {\n  if (__dredd_enabled_mutation(local_mutation_id + 0)) return !arg;\n  return arg;\n}\nstatic int __dredd_replace_binary_operator_LAnd_arg1_long_arg2_long_long_outer(int arg, int local_mutation_id) {\n  if (__dredd_enabled_mutation(local_mutation_id + 0)) return !arg;\n  return arg;\n}\nint main() {\n    if (!__dredd_enabled_mutation(21)) { __dredd_replace_expr_int(__dredd_replace_binary_operator_LAnd_arg1_long_long_arg2_long_outer(__dredd_replace_binary_operator_LAnd_arg1_long_long_arg2_long_lhs(__dredd_replace_expr_long_long(5LL, 0), 12) && __dredd_replace_binary_operator_LAnd_arg1_long_long_arg2_long_rhs(__dredd_replace_expr_long(4L, 6), 12), 12), 15); }\n    if (!__dredd_enabled_mutation(43)) { __dredd_replace_expr_int(__dredd_replace_binary_operator_LAnd_arg1_long_arg2_long_long_outer(__dredd_replace_binary_operator_LAnd_arg1_long_arg2_long_long_lhs(__dredd_replace_expr_long(4L, 22), 34) && __dredd_replace_binary_operator_LAnd_arg1_long_arg2_long_long_rhs(__dredd_replace_expr_long_long(5LL, 28), 34), 34), 37); }\n}\n" }

#guard binary_long_long_and_long_name_clash_c.ok

/-- test/single_file/bool_assignment.cc -/
def bool_assignment_cc : Case :=
  let src : Text := t!"int main() {\n  bool x = true;\n  bool y = false;\n}\n"
  { name := "bool_assignment.cc", lang := cpp, src := src, ast :=
    .decl ⟨.tu, none⟩ [
     .decl ⟨.func false none, (some ⟨0, 49⟩)⟩ [
      st src .compound .plain (some ⟨11, 49⟩) [
       st src .declStmt .plain (some ⟨15, 29⟩) [
        .decl ⟨.var ⟨20, false, [], [], false, false, false⟩, (some ⟨15, 28⟩)⟩ [
         ex src .other (some .bool) .plain 24 (some ⟨24, 28⟩) (fun f => { f with intVal := some 1, boolVal := some true, cxx11Const := true }) []]],
       st src .declStmt .plain (some ⟨32, 47⟩) [
        .decl ⟨.var ⟨37, false, [], [], false, false, false⟩, (some ⟨32, 46⟩)⟩ [
         ex src .other (some .bool) .plain 41 (some ⟨41, 46⟩) (fun f => { f with intVal := some 0, boolVal := some false, cxx11Const := true }) []]]]]]
    expected := "// DREDD PRELUDE START\n// If this has been inserted at an inappropriate place in a source file,\n// declare a placeholder function with the following signature to\n// mandate where the prelude should be placed:\n//\n// void __dredd_prelude_start();\n//\n#include <atomic>\n#include <cinttypes>\n#include <cstddef>\n#include <fstream>\n#include <functional>\n#include <sstream>\n#include <string>\n\n\n#ifdef _MSC_VER\n#define thread_local __declspec(thread)\n#elif __APPLE__\n#define thread_local __thread\n#endif\n\nstatic thread_local bool __dredd_some_mutation_enabled = true;\nstatic bool __dredd_enabled_mutation(int local_mutation_id) {\n  static thread_local bool initialized = false;\n  static thread_local uint64_t enabled_bitset[1];\n  if (!initialized) {\n    bool some_mutation_enabled = false;\n    const char* dredd_environment_variable = std::getenv(\"DREDD_ENABLED_MUTATION\");\n    if (dredd_environment_variable != nullptr) {\n      std::string contents(dredd_environment_variable);\n      while (true) {\n        size_t pos = contents.find(\",\");\n        std::string token = (pos == std::string::npos ? contents : contents.substr(0, pos));\n        if (!token.empty()) {\n          int value = std::stoi(token);\n          int local_value = value - 0;\n          if (local_value >= 0 && local_value < 2) {\n            enabled_bitset[local_value / 64] |= (static_cast<uint64_t>(1) << (local_value % 64));\n            some_mutation_enabled = true;\n          }\n        }\n        if (pos == std::string::npos) {\n          break;\n        }\n        contents.erase(0, pos + 1);\n      }\n    }\n    initialized = true;\n    __dredd_some_mutation_enabled = some_mutation_enabled;\n  }\n  return (enabled_bitset[local_mutation_id / 64] & (static_cast<uint64_t>(1) << (local_mutation_id % 64))) != 0;\n}\n\nstatic bool __dredd_replace_expr_bool_true(bool arg, int local_mutation_id) {\n  if (!__dredd_some_mutation_enabled) return arg;\n  if (__dredd_enabled_mutation(local_mutation_id + 0)) return false;\n  return arg;\n}\n\nstatic bool __dredd_replace_expr_bool_false(bool arg, int local_mutation_id) {\n  if (!__dredd_some_mutation_enabled) return arg;\n  if (__dredd_enabled_mutation(local_mutation_id + 0)) return true;\n  return arg;\n}\n\nint main() {\n  bool x = __dredd_replace_expr_bool_true(true, 0);\n  bool y = __dredd_replace_expr_bool_false(false, 1);\n}\n"
    noopt := "// DREDD PRELUDE START\n// If this has been inserted at an inappropriate place in a source file,\n// declare a placeholder function with the following signature to\n// mandate where the prelude should be placed:\n//\n// void __dredd_prelude_start();\n//\n#include <atomic>\n#include <cinttypes>\n#include <cstddef>\n#include <fstream>\n#include <functional>\n#include <sstream>\n#include <string>\n\n\n#ifdef _MSC_VER\n#define thread_local __declspec(thread)\n#elif __APPLE__\n#define thread_local __thread\n#endif\n\nstatic thread_local bool __dredd_some_mutation_enabled = true;\nstatic bool __dredd_enabled_mutation(int local_mutation_id) {\n  static thread_local bool initialized = false;\n  static thread_local uint64_t enabled_bitset[1];\n  if (!initialized) {\n    bool some_mutation_enabled = false;\n    const char* dredd_environment_variable = std::getenv(\"DREDD_ENABLED_MUTATION\");\n    if (dredd_environment_variable != nullptr) {\n      std::string contents(dredd_environment_variable);\n      while (true) {\n        size_t pos = contents.find(\",\");\n        std::string token = (pos == std::string::npos ? contents : contents.substr(0, pos));\n        if (!token.empty()) {\n          int value = std::stoi(token);\n          int local_value = value - 0;\n          if (local_value >= 0 && local_value < 6) {\n            enabled_bitset[local_value / 64] |= (static_cast<uint64_t>(1) << (local_value % 64));\n            some_mutation_enabled = true;\n          }\n        }\n        if (pos == std::string::npos) {\n          break;\n        }\n        contents.erase(0, pos + 1);\n      }\n    }\n    initialized = true;\n    __dredd_some_mutation_enabled = some_mutation_enabled;\n  }\n  return (enabled_bitset[local_mutation_id / 64] & (static_cast<uint64_t>(1) << (local_mutation_id % 64))) != 0;\n}\n\nstatic bool __dredd_replace_expr_bool(bool arg, int local_mutation_id) {\n  if (!__dredd_some_mutation_enabled) return arg;\n  if (__dredd_enabled_mutation(local_mutation_id + 0)) return !(arg);\n  if (__dredd_enabled_mutation(local_mutation_id + 1)) return true;\n  if (__dredd_enabled_mutation(local_mutation_id + 2)) return false;\n  return arg;\n}\n\nint main() {\n  bool x = __dredd_replace_expr_bool(true, 0);\n  bool y = __dredd_replace_expr_bool(false, 3);\n}\n" }

#guard bool_assignment_cc.ok

/-- test/single_file/boolean_not_insertion_optimisation.c -/
def boolean_not_insertion_optimisation_c : Case :=
  let src : Text := t!"#include <stdbool.h>\n\nint main() {\n  int x = 1 && 0;\n}\n"
  { name := "boolean_not_insertion_optimisation.c", lang := cBool, src := src, ast :=
    .decl ⟨.tu, none⟩ [
     .decl ⟨.func false none, (some ⟨22, 54⟩)⟩ [
      st src .compound .plain (some ⟨33, 54⟩) [
       st src .declStmt .plain (some ⟨37, 52⟩) [
        .decl ⟨.var ⟨41, false, [], [], false, false, false⟩, (some ⟨37, 51⟩)⟩ [
         ex src (.binary .land) (some .int) .plain 45 (some ⟨45, 51⟩) (fun f => { f with intVal := some 0, boolVal := some false, opOff := some 47 }) [
          ex src .other (some .int) .lhs 45 (some ⟨45, 46⟩) (fun f => { f with intVal := some 1, boolVal := some true }) [],
          ex src .other (some .int) .rhs 50 (some ⟨50, 51⟩) (fun f => { f with intVal := some 0, boolVal := some false, nullConst := true }) []]]]]]]
    expected := "// DREDD PRELUDE START\n// If this has been inserted at an inappropriate place in a source file,\n// declare a placeholder function with the following signature to\n// mandate where the prelude should be placed:\n//\n// void __dredd_prelude_start();\n//\n#include <inttypes.h>\n#include <stdatomic.h>\n#include <stdbool.h>\n#include <stdio.h>\n#include <stdlib.h>\n#include <string.h>\n\n#ifdef _MSC_VER\n#define thread_local __declspec(thread)\n#elif __APPLE__\n#define thread_local __thread\n#else\n#include <threads.h>\n#endif\n\nstatic thread_local int __dredd_some_mutation_enabled = 1;\nstatic bool __dredd_enabled_mutation(int local_mutation_id) {\n  static thread_local int initialized = 0;\n  static thread_local uint64_t enabled_bitset[1];\n  if (!initialized) {\n    int some_mutation_enabled = 0;\n    const char* dredd_environment_variable = getenv(\"DREDD_ENABLED_MUTATION\");\n    if (dredd_environment_variable) {\n      char* temp = malloc(strlen(dredd_environment_variable) + 1);\n      strcpy(temp, dredd_environment_variable);\n      char* token;\n      token = strtok(temp, \",\");\n      while(token) {\n        int value = atoi(token);\n        int local_value = value - 0;\n        if (local_value >= 0 && local_value < 10) {\n          enabled_bitset[local_value / 64] |= ((uint64_t) 1 << (local_value % 64));\n          some_mutation_enabled = 1;\n        }\n        token = strtok(NULL, \",\");\n      }\n      free(temp);\n    }\n    initialized = 1;\n    __dredd_some_mutation_enabled = some_mutation_enabled;\n  }\n  return enabled_bitset[local_mutation_id / 64] & ((uint64_t) 1 << (local_mutation_id % 64));\n}\n\nstatic int __dredd_replace_expr_int_zero(int arg, int local_mutation_id) {\n  if (!__dredd_some_mutation_enabled) return arg;\n  if (__dredd_enabled_mutation(local_mutation_id + 0)) return 1;\n  if (__dredd_enabled_mutation(local_mutation_id + 1)) return -1;\n  return arg;\n}\n\nstatic int __dredd_replace_expr_int_one(int arg, int local_mutation_id) {\n  if (!__dredd_some_mutation_enabled) return arg;\n  if (__dredd_enabled_mutation(local_mutation_id + 0)) return ~(arg);\n  if (__dredd_enabled_mutation(local_mutation_id + 1)) return 0;\n  if (__dredd_enabled_mutation(local_mutation_id + 2)) return -1;\n  return arg;\n}\n\nstatic int __dredd_replace_binary_operator_LAnd_arg1_int_arg2_int_rhs_zero_lhs_one_rhs(int arg, int local_mutation_id) {\n  if (!__dredd_some_mutation_enabled) return arg;\n  if (__dredd_enabled_mutation(local_mutation_id + 0)) return !arg;\n  if (__dredd_enabled_mutation(local_mutation_id + 1)) return 1;\n  return arg;\n}\nstatic int __dredd_replace_binary_operator_LAnd_arg1_int_arg2_int_rhs_zero_lhs_one_outer(int arg, int local_mutation_id) {\n  if (__dredd_enabled_mutation(local_mutation_id + 0)) return !arg;\n  return arg;\n}\nstatic int __dredd_replace_binary_operator_LAnd_arg1_int_arg2_int_rhs_zero_lhs_one_lhs(int arg, int local_mutation_id) {\n  if (!__dredd_some_mutation_enabled) return arg;\n  if (__dredd_enabled_mutation(local_mutation_id + 0)) return !arg;\n  if (__dredd_enabled_mutation(local_mutation_id + 2)) return 1;\n  return arg;\n}\n#include <stdbool.h>\n\nint main() {\n  int x = __dredd_replace_expr_int_zero(__dredd_replace_binary_operator_LAnd_arg1_int_arg2_int_rhs_zero_lhs_one_outer(__dredd_replace_binary_operator_LAnd_arg1_int_arg2_int_rhs_zero_lhs_one_lhs(__dredd_replace_expr_int_one(1, 0), 5) && __dredd_replace_binary_operator_LAnd_arg1_int_arg2_int_rhs_zero_lhs_one_rhs(__dredd_replace_expr_int_zero(0, 3), 5), 5), 8);\n}\n"
    noopt := "// DREDD PRELUDE START\n// If this has been inserted at an inappropriate place in a source file,\n// declare a placeholder function with the following signature to\n// mandate where the prelude should be placed:\n//\n// void __dredd_prelude_start();\n//\n#include <inttypes.h>\n#include <stdatomic.h>\n#include <stdbool.h>\n#include <stdio.h>\n#include <stdlib.h>\n#include <string.h>\n\n#ifdef _MSC_VER\n#define thread_local __declspec(thread)\n#elif __APPLE__\n#define thread_local __thread\n#else\n#include <threads.h>\n#endif\n\nstatic thread_local int __dredd_some_mutation_enabled = 1;\nstatic bool __dredd_enabled_mutation(int local_mutation_id) {\n  static thread_local int initialized = 0;\n  static thread_local uint64_t enabled_bitset[1];\n  if (!initialized) {\n    int some_mutation_enabled = 0;\n    const char* dredd_environment_variable = getenv(\"DREDD_ENABLED_MUTATION\");\n    if (dredd_environment_variable) {\n      char* temp = malloc(strlen(dredd_environment_variable) + 1);\n      strcpy(temp, dredd_environment_variable);\n      char* token;\n      token = strtok(temp, \",\");\n      while(token) {\n        int value = atoi(token);\n        int local_value = value - 0;\n        if (local_value >= 0 && local_value < 21) {\n          enabled_bitset[local_value / 64] |= ((uint64_t) 1 << (local_value % 64));\n          some_mutation_enabled = 1;\n        }\n        token = strtok(NULL, \",\");\n      }\n      free(temp);\n    }\n    initialized = 1;\n    __dredd_some_mutation_enabled = some_mutation_enabled;\n  }\n  return enabled_bitset[local_mutation_id / 64] & ((uint64_t) 1 << (local_mutation_id % 64));\n}\n\nstatic int __dredd_replace_expr_int(int arg, int local_mutation_id) {\n  if (!__dredd_some_mutation_enabled) return arg;\n  if (__dredd_enabled_mutation(local_mutation_id + 0)) return !(arg);\n  if (__dredd_enabled_mutation(local_mutation_id + 1)) return ~(arg);\n  if (__dredd_enabled_mutation(local_mutation_id + 2)) return -(arg);\n  if (__dredd_enabled_mutation(local_mutation_id + 3)) return 0;\n  if (__dredd_enabled_mutation(local_mutation_id + 4)) return 1;\n  if (__dredd_enabled_mutation(local_mutation_id + 5)) return -1;\n  return arg;\n}\n\nstatic int __dredd_replace_binary_operator_LAnd_arg1_int_arg2_int_rhs(int arg, int local_mutation_id) {\n  if (!__dredd_some_mutation_enabled) return arg;\n  if (__dredd_enabled_mutation(local_mutation_id + 0)) return !arg;\n  if (__dredd_enabled_mutation(local_mutation_id + 1)) return 1;\n  return arg;\n}\nstatic int __dredd_replace_binary_operator_LAnd_arg1_int_arg2_int_outer(int arg, int local_mutation_id) {\n  if (__dredd_enabled_mutation(local_mutation_id + 0)) return !arg;\n  return arg;\n}\nstatic int __dredd_replace_binary_operator_LAnd_arg1_int_arg2_int_lhs(int arg, int local_mutation_id) {\n  if (!__dredd_some_mutation_enabled) return arg;\n  if (__dredd_enabled_mutation(local_mutation_id + 0)) return !arg;\n  if (__dredd_enabled_mutation(local_mutation_id + 2)) return 1;\n  return arg;\n}\n#include <stdbool.h>\n\nint main() {\n  int x = __dredd_replace_expr_int(__dredd_replace_binary_operator_LAnd_arg1_int_arg2_int_outer(__dredd_replace_binary_operator_LAnd_arg1_int_arg2_int_lhs(__dredd_replace_expr_int(1, 0), 12) && __dredd_replace_binary_operator_LAnd_arg1_int_arg2_int_rhs(__dredd_replace_expr_int(0, 6), 12), 12), 15);\n}\n" }

#guard boolean_not_insertion_optimisation_c.ok

/-- test/single_file/boolean_not_insertion_optimisation.cc -/
def boolean_not_insertion_optimisation_cc : Case :=
  let src : Text := t!"int main() {\n  bool x = true;\n  x = false;\n}\n"
  { name := "boolean_not_insertion_optimisation.cc", lang := cpp, src := src, ast :=
    .decl ⟨.tu, none⟩ [
     .decl ⟨.func false none, (some ⟨0, 44⟩)⟩ [
      st src .compound .plain (some ⟨11, 44⟩) [
       st src .declStmt .plain (some ⟨15, 29⟩) [
        .decl ⟨.var ⟨20, false, [], [], false, false, false⟩, (some ⟨15, 28⟩)⟩ [
         ex src .other (some .bool) .plain 24 (some ⟨24, 28⟩) (fun f => { f with intVal := some 1, boolVal := some true, cxx11Const := true }) []]],
       ex src (.binary .assign) (some .bool) .plain 32 (some ⟨32, 41⟩) (fun f => { f with lvalue := true, sideEffects := true, opOff := some 34 }) [
        ex src .other (some .bool) .lhs 32 (some ⟨32, 33⟩) (fun f => { f with lvalue := true }) [],
        ex src .other (some .bool) .rhs 36 (some ⟨36, 41⟩) (fun f => { f with intVal := some 0, boolVal := some false, cxx11Const := true }) []]]]]
    expected := "// DREDD PRELUDE START\n// If this has been inserted at an inappropriate place in a source file,\n// declare a placeholder function with the following signature to\n// mandate where the prelude should be placed:\n//\n// void __dredd_prelude_start();\n//\n#include <atomic>\n#include <cinttypes>\n#include <cstddef>\n#include <fstream>\n#include <functional>\n#include <sstream>\n#include <string>\n\n\n#ifdef _MSC_VER\n#define thread_local __declspec(thread)\n#elif __APPLE__\n#define thread_local __thread\n#endif\n\nstatic thread_local bool __dredd_some_mutation_enabled = true;\nstatic bool __dredd_enabled_mutation(int local_mutation_id) {\n  static thread_local bool initialized = false;\n  static thread_local uint64_t enabled_bitset[1];\n  if (!initialized) {\n    bool some_mutation_enabled = false;\n    const char* dredd_environment_variable = std::getenv(\"DREDD_ENABLED_MUTATION\");\n    if (dredd_environment_variable != nullptr) {\n      std::string contents(dredd_environment_variable);\n      while (true) {\n        size_t pos = contents.find(\",\");\n        std::string token = (pos == std::string::npos ? contents : contents.substr(0, pos));\n        if (!token.empty()) {\n          int value = std::stoi(token);\n          int local_value = value - 0;\n          if (local_value >= 0 && local_value < 13) {\n            enabled_bitset[local_value / 64] |= (static_cast<uint64_t>(1) << (local_value % 64));\n            some_mutation_enabled = true;\n          }\n        }\n        if (pos == std::string::npos) {\n          break;\n        }\n        contents.erase(0, pos + 1);\n      }\n    }\n    initialized = true;\n    __dredd_some_mutation_enabled = some_mutation_enabled;\n  }\n  return (enabled_bitset[local_mutation_id / 64] & (static_cast<uint64_t>(1) << (local_mutation_id % 64))) != 0;\n}\n\nstatic bool& __dredd_replace_binary_operator_Assign_arg1_bool_arg2_bool(bool& arg1, bool arg2, int local_mutation_id) {\n  if (!__dredd_some_mutation_enabled) return arg1 = arg2;\n  if (__dredd_enabled_mutation(local_mutation_id + 0)) return arg1 += arg2;\n  if (__dredd_enabled_mutation(local_mutation_id + 1)) return arg1 &= arg2;\n  if (__dredd_enabled_mutation(local_mutation_id + 2)) return arg1 /= arg2;\n  if (__dredd_enabled_mutation(local_mutation_id + 3)) return arg1 *= arg2;\n  if (__dredd_enabled_mutation(local_mutation_id + 4)) return arg1 |= arg2;\n  if (__dredd_enabled_mutation(local_mutation_id + 5)) return arg1 %= arg2;\n  if (__dredd_enabled_mutation(local_mutation_id + 6)) return arg1 <<= arg2;\n  if (__dredd_enabled_mutation(local_mutation_id + 7)) return arg1 >>= arg2;\n  if (__dredd_enabled_mutation(local_mutation_id + 8)) return arg1 -= arg2;\n  if (__dredd_enabled_mutation(local_mutation_id + 9)) return arg1 ^= arg2;\n  return arg1 = arg2;\n}\n\nstatic bool __dredd_replace_expr_bool_true(bool arg, int local_mutation_id) {\n  if (!__dredd_some_mutation_enabled) return arg;\n  if (__dredd_enabled_mutation(local_mutation_id + 0)) return false;\n  return arg;\n}\n\nstatic bool __dredd_replace_expr_bool_false(bool arg, int local_mutation_id) {\n  if (!__dredd_some_mutation_enabled) return arg;\n  if (__dredd_enabled_mutation(local_mutation_id + 0)) return true;\n  return arg;\n}\n\nint main() {\n  bool x = __dredd_replace_expr_bool_true(true, 0);\n  if (!__dredd_enabled_mutation(12)) { __dredd_replace_binary_operator_Assign_arg1_bool_arg2_bool(x , __dredd_replace_expr_bool_false(false, 1), 2); }\n}\n"
    noopt := "// DREDD PRELUDE START\n// If this has been inserted at an inappropriate place in a source file,\n// declare a placeholder function with the following signature to\n// mandate where the prelude should be placed:\n//\n// void __dredd_prelude_start();\n//\n#include <atomic>\n#include <cinttypes>\n#include <cstddef>\n#include <fstream>\n#include <functional>\n#include <sstream>\n#include <string>\n\n\n#ifdef _MSC_VER\n#define thread_local __declspec(thread)\n#elif __APPLE__\n#define thread_local __thread\n#endif\n\nstatic thread_local bool __dredd_some_mutation_enabled = true;\nstatic bool __dredd_enabled_mutation(int local_mutation_id) {\n  static thread_local bool initialized = false;\n  static thread_local uint64_t enabled_bitset[1];\n  if (!initialized) {\n    bool some_mutation_enabled = false;\n    const char* dredd_environment_variable = std::getenv(\"DREDD_ENABLED_MUTATION\");\n    if (dredd_environment_variable != nullptr) {\n      std::string contents(dredd_environment_variable);\n      while (true) {\n        size_t pos = contents.find(\",\");\n        std::string token = (pos == std::string::npos ? contents : contents.substr(0, pos));\n        if (!token.empty()) {\n          int value = std::stoi(token);\n          int local_value = value - 0;\n          if (local_value >= 0 && local_value < 17) {\n            enabled_bitset[local_value / 64] |= (static_cast<uint64_t>(1) << (local_value % 64));\n            some_mutation_enabled = true;\n          }\n        }\n        if (pos == std::string::npos) {\n          break;\n        }\n        contents.erase(0, pos + 1);\n      }\n    }\n    initialized = true;\n    __dredd_some_mutation_enabled = some_mutation_enabled;\n  }\n  return (enabled_bitset[local_mutation_id / 64] & (static_cast<uint64_t>(1) << (local_mutation_id % 64))) != 0;\n}\n\nstatic bool& __dredd_replace_binary_operator_Assign_arg1_bool_arg2_bool(bool& arg1, bool arg2, int local_mutation_id) {\n  if (!__dredd_some_mutation_enabled) return arg1 = arg2;\n  if (__dredd_enabled_mutation(local_mutation_id + 0)) return arg1 += arg2;\n  if (__dredd_enabled_mutation(local_mutation_id + 1)) return arg1 &= arg2;\n  if (__dredd_enabled_mutation(local_mutation_id + 2)) return arg1 /= arg2;\n  if (__dredd_enabled_mutation(local_mutation_id + 3)) return arg1 *= arg2;\n  if (__dredd_enabled_mutation(local_mutation_id + 4)) return arg1 |= arg2;\n  if (__dredd_enabled_mutation(local_mutation_id + 5)) return arg1 %= arg2;\n  if (__dredd_enabled_mutation(local_mutation_id + 6)) return arg1 <<= arg2;\n  if (__dredd_enabled_mutation(local_mutation_id + 7)) return arg1 >>= arg2;\n  if (__dredd_enabled_mutation(local_mutation_id + 8)) return arg1 -= arg2;\n  if (__dredd_enabled_mutation(local_mutation_id + 9)) return arg1 ^= arg2;\n  return arg1 = arg2;\n}\n\nstatic bool __dredd_replace_expr_bool(bool arg, int local_mutation_id) {\n  if (!__dredd_some_mutation_enabled) return arg;\n  if (__dredd_enabled_mutation(local_mutation_id + 0)) return !(arg);\n  if (__dredd_enabled_mutation(local_mutation_id + 1)) return true;\n  if (__dredd_enabled_mutation(local_mutation_id + 2)) return false;\n  return arg;\n}\n\nint main() {\n  bool x = __dredd_replace_expr_bool(true, 0);\n  if (!__dredd_enabled_mutation(16)) { __dredd_replace_binary_operator_Assign_arg1_bool_arg2_bool(x , __dredd_replace_expr_bool(false, 3), 6); }\n}\n" }

#guard boolean_not_insertion_optimisation_cc.ok

/-- test/single_file/braced_initialization.cc -/
def braced_initialization_cc : Case :=
  let src : Text := t!"int main() {\n  char test {24};\n}\n"
  { name := "braced_initialization.cc", lang := cpp, src := src, ast :=
    .decl ⟨.tu, none⟩ [
     .decl ⟨.func false none, (some ⟨0, 32⟩)⟩ [
      st src .compound .plain (some ⟨11, 32⟩) [
       st src .declStmt .plain (some ⟨15, 30⟩) [
        .decl ⟨.var ⟨20, false, [], [], false, false, false⟩, (some ⟨15, 29⟩)⟩ [
         ex src .initList (some .char) .plain 25 (some ⟨25, 29⟩) id [
          ex src (.cast true false) (some .char) .plain 26 (some ⟨26, 28⟩) (fun f => { f with intVal := some 24, boolVal := some true, cxx11Const := true }) [
           ex src .other (some .int) .operand 26 (some ⟨26, 28⟩) (fun f => { f with intVal := some 24, boolVal := some true, cxx11Const := true }) []]]]]]]]
    expected := "// DREDD PRELUDE START\n// If this has been inserted at an inappropriate place in a source file,\n// declare a placeholder function with the following signature to\n// mandate where the prelude should be placed:\n//\n// void __dredd_prelude_start();\n//\n#include <atomic>\n#include <cinttypes>\n#include <cstddef>\n#include <fstream>\n#include <functional>\n#include <sstream>\n#include <string>\n\n\n#ifdef _MSC_VER\n#define thread_local __declspec(thread)\n#elif __APPLE__\n#define thread_local __thread\n#endif\n\nstatic thread_local bool __dredd_some_mutation_enabled = true;\nstatic bool __dredd_enabled_mutation(int local_mutation_id) {\n  static thread_local bool initialized = false;\n  static thread_local uint64_t enabled_bitset[1];\n  if (!initialized) {\n    bool some_mutation_enabled = false;\n    const char* dredd_environment_variable = std::getenv(\"DREDD_ENABLED_MUTATION\");\n    if (dredd_environment_variable != nullptr) {\n      std::string contents(dredd_environment_variable);\n      while (true) {\n        size_t pos = contents.find(\",\");\n        std::string token = (pos == std::string::npos ? contents : contents.substr(0, pos));\n        if (!token.empty()) {\n          int value = std::stoi(token);\n          int local_value = value - 0;\n          if (local_value >= 0 && local_value < 5) {\n            enabled_bitset[local_value / 64] |= (static_cast<uint64_t>(1) << (local_value % 64));\n            some_mutation_enabled = true;\n          }\n        }\n        if (pos == std::string::npos) {\n          break;\n        }\n        contents.erase(0, pos + 1);\n      }\n    }\n    initialized = true;\n    __dredd_some_mutation_enabled = some_mutation_enabled;\n  }\n  return (enabled_bitset[local_mutation_id / 64] & (static_cast<uint64_t>(1) << (local_mutation_id % 64))) != 0;\n}\n\nstatic char __dredd_replace_expr_char_constant(char arg, int local_mutation_id) {\n  if (!__dredd_some_mutation_enabled) return arg;\n  if (__dredd_enabled_mutation(local_mutation_id + 0)) return ~(arg);\n  if (__dredd_enabled_mutation(local_mutation_id + 1)) return -(arg);\n  if (__dredd_enabled_mutation(local_mutation_id + 2)) return 0;\n  if (__dredd_enabled_mutation(local_mutation_id + 3)) return 1;\n  if (__dredd_enabled_mutation(local_mutation_id + 4)) return -1;\n  return arg;\n}\n\nint main() {\n  char test {__dredd_replace_expr_char_constant(24, 0)};\n}\n"
    noopt := "// DREDD PRELUDE START\n// If this has been inserted at an inappropriate place in a source file,\n// declare a placeholder function with the following signature to\n// mandate where the prelude should be placed:\n//\n// void __dredd_prelude_start();\n//\n#include <atomic>\n#include <cinttypes>\n#include <cstddef>\n#include <fstream>\n#include <functional>\n#include <sstream>\n#include <string>\n\n\n#ifdef _MSC_VER\n#define thread_local __declspec(thread)\n#elif __APPLE__\n#define thread_local __thread\n#endif\n\nstatic thread_local bool __dredd_some_mutation_enabled = true;\nstatic bool __dredd_enabled_mutation(int local_mutation_id) {\n  static thread_local bool initialized = false;\n  static thread_local uint64_t enabled_bitset[1];\n  if (!initialized) {\n    bool some_mutation_enabled = false;\n    const char* dredd_environment_variable = std::getenv(\"DREDD_ENABLED_MUTATION\");\n    if (dredd_environment_variable != nullptr) {\n      std::string contents(dredd_environment_variable);\n      while (true) {\n        size_t pos = contents.find(\",\");\n        std::string token = (pos == std::string::npos ? contents : contents.substr(0, pos));\n        if (!token.empty()) {\n          int value = std::stoi(token);\n          int local_value = value - 0;\n          if (local_value >= 0 && local_value < 12) {\n            enabled_bitset[local_value / 64] |= (static_cast<uint64_t>(1) << (local_value % 64));\n            some_mutation_enabled = true;\n          }\n        }\n        if (pos == std::string::npos) {\n          break;\n        }\n        contents.erase(0, pos + 1);\n      }\n    }\n    initialized = true;\n    __dredd_some_mutation_enabled = some_mutation_enabled;\n  }\n  return (enabled_bitset[local_mutation_id / 64] & (static_cast<uint64_t>(1) << (local_mutation_id % 64))) != 0;\n}\n\nstatic int __dredd_replace_expr_int(int arg, int local_mutation_id) {\n  if (!__dredd_some_mutation_enabled) return arg;\n  if (__dredd_enabled_mutation(local_mutation_id + 0)) return !(arg);\n  if (__dredd_enabled_mutation(local_mutation_id + 1)) return ~(arg);\n  if (__dredd_enabled_mutation(local_mutation_id + 2)) return -(arg);\n  if (__dredd_enabled_mutation(local_mutation_id + 3)) return 0;\n  if (__dredd_enabled_mutation(local_mutation_id + 4)) return 1;\n  if (__dredd_enabled_mutation(local_mutation_id + 5)) return -1;\n  return arg;\n}\n\nstatic char __dredd_replace_expr_char(char arg, int local_mutation_id) {\n  if (!__dredd_some_mutation_enabled) return arg;\n  if (__dredd_enabled_mutation(local_mutation_id + 0)) return !(arg);\n  if (__dredd_enabled_mutation(local_mutation_id + 1)) return ~(arg);\n  if (__dredd_enabled_mutation(local_mutation_id + 2)) return -(arg);\n  if (__dredd_enabled_mutation(local_mutation_id + 3)) return 0;\n  if (__dredd_enabled_mutation(local_mutation_id + 4)) return 1;\n  if (__dredd_enabled_mutation(local_mutation_id + 5)) return -1;\n  return arg;\n}\n\nint main() {\n  char test {__dredd_replace_expr_char(__dredd_replace_expr_int(24, 0), 6)};\n}\n" }

#guard braced_initialization_cc.ok

/-- test/single_file/builtin_frame_address.cc -/
def builtin_frame_address_cc : Case :=
  let src : Text := t!"void foo() {\n  __builtin_frame_address(0);\n}\n"
  { name := "builtin_frame_address.cc", lang := cpp, src := src, ast :=
    .decl ⟨.tu, none⟩ [
     .decl ⟨.func false none, (some ⟨0, 44⟩)⟩ [
      st src .compound .plain (some ⟨11, 44⟩) [
       ex src (.call (some ⟨1, (some ⟨39, 40⟩), some ⟨32, true, 0⟩⟩) false false) none .plain 15 (some ⟨15, 41⟩) (fun f => { f with sideEffects := true, anyPointer := true, pointer := true }) []]]]
    expected := "// DREDD PRELUDE START\n// If this has been inserted at an inappropriate place in a source file,\n// declare a placeholder function with the following signature to\n// mandate where the prelude should be placed:\n//\n// void __dredd_prelude_start();\n//\n#include <atomic>\n#include <cinttypes>\n#include <cstddef>\n#include <fstream>\n#include <functional>\n#include <sstream>\n#include <string>\n\n\n#ifdef _MSC_VER\n#define thread_local __declspec(thread)\n#elif __APPLE__\n#define thread_local __thread\n#endif\n\nstatic thread_local bool __dredd_some_mutation_enabled = true;\nstatic bool __dredd_enabled_mutation(int local_mutation_id) {\n  static thread_local bool initialized = false;\n  static thread_local uint64_t enabled_bitset[1];\n  if (!initialized) {\n    bool some_mutation_enabled = false;\n    const char* dredd_environment_variable = std::getenv(\"DREDD_ENABLED_MUTATION\");\n    if (dredd_environment_variable != nullptr) {\n      std::string contents(dredd_environment_variable);\n      while (true) {\n        size_t pos = contents.find(\",\");\n        std::string token = (pos == std::string::npos ? contents : contents.substr(0, pos));\n        if (!token.empty()) {\n          int value = std::stoi(token);\n          int local_value = value - 0;\n          if (local_value >= 0 && local_value < 1) {\n            enabled_bitset[local_value / 64] |= (static_cast<uint64_t>(1) << (local_value % 64));\n            some_mutation_enabled = true;\n          }\n        }\n        if (pos == std::string::npos) {\n          break;\n        }\n        contents.erase(0, pos + 1);\n      }\n    }\n    initialized = true;\n    __dredd_some_mutation_enabled = some_mutation_enabled;\n  }\n  return (enabled_bitset[local_mutation_id / 64] & (static_cast<uint64_t>(1) << (local_mutation_id % 64))) != 0;\n}\n\nvoid foo() {\n  if (!__dredd_enabled_mutation(0)) { __builtin_frame_address(0); }\n}\n"
    noopt := "// DREDD PRELUDE START\n// If this has been inserted at an inappropriate place in a source file,\n// declare a placeholder function with the following signature to\n// mandate where the prelude should be placed:\n//\n// void __dredd_prelude_start();\n//\n#include <atomic>\n#include <cinttypes>\n#include <cstddef>\n#include <fstream>\n#include <functional>\n#include <sstream>\n#include <string>\n\n\n#ifdef _MSC_VER\n#define thread_local __declspec(thread)\n#elif __APPLE__\n#define thread_local __thread\n#endif\n\nstatic thread_local bool __dredd_some_mutation_enabled = true;\nstatic bool __dredd_enabled_mutation(int local_mutation_id) {\n  static thread_local bool initialized = false;\n  static thread_local uint64_t enabled_bitset[1];\n  if (!initialized) {\n    bool some_mutation_enabled = false;\n    const char* dredd_environment_variable = std::getenv(\"DREDD_ENABLED_MUTATION\");\n    if (dredd_environment_variable != nullptr) {\n      std::string contents(dredd_environment_variable);\n      while (true) {\n        size_t pos = contents.find(\",\");\n        std::string token = (pos == std::string::npos ? contents : contents.substr(0, pos));\n        if (!token.empty()) {\n          int value = std::stoi(token);\n          int local_value = value - 0;\n          if (local_value >= 0 && local_value < 1) {\n            enabled_bitset[local_value / 64] |= (static_cast<uint64_t>(1) << (local_value % 64));\n            some_mutation_enabled = true;\n          }\n        }\n        if (pos == std::string::npos) {\n          break;\n        }\n        contents.erase(0, pos + 1);\n      }\n    }\n    initialized = true;\n    __dredd_some_mutation_enabled = some_mutation_enabled;\n  }\n  return (enabled_bitset[local_mutation_id / 64] & (static_cast<uint64_t>(1) << (local_mutation_id % 64))) != 0;\n}\n\nvoid foo() {\n  if (!__dredd_enabled_mutation(0)) { __builtin_frame_address(0); }\n}\n" }

#guard builtin_frame_address_cc.ok

/-- test/single_file/builtin_frame_address_with_argument_rewrite.cc -/
def builtin_frame_address_with_argument_rewrite_cc : Case :=
  let src : Text := t!"void foo() {\n  const int x = 42;\n  __builtin_frame_address(x);\n}\n"
  { name := "builtin_frame_address_with_argument_rewrite.cc", lang := cpp, src := src, ast :=
    .decl ⟨.tu, none⟩ [
     .decl ⟨.func false none, (some ⟨0, 64⟩)⟩ [
      st src .compound .plain (some ⟨11, 64⟩) [
       st src .declStmt .plain (some ⟨15, 32⟩) [
        .decl ⟨.var ⟨25, false, [], [], false, false, false⟩, (some ⟨15, 31⟩)⟩ [
         ex src .other (some .int) .plain 29 (some ⟨29, 31⟩) (fun f => { f with intVal := some 42, boolVal := some true, cxx11Const := true }) []]],
       ex src (.call (some ⟨1, (some ⟨59, 60⟩), some ⟨32, true, 42⟩⟩) false false) none .plain 35 (some ⟨35, 61⟩) (fun f => { f with sideEffects := true, anyPointer := true, pointer := true }) []]]]
    expected := "// DREDD PRELUDE START\n// If this has been inserted at an inappropriate place in a source file,\n// declare a placeholder function with the following signature to\n// mandate where the prelude should be placed:\n//\n// void __dredd_prelude_start();\n//\n#include <atomic>\n#include <cinttypes>\n#include <cstddef>\n#include <fstream>\n#include <functional>\n#include <sstream>\n#include <string>\n\n\n#ifdef _MSC_VER\n#define thread_local __declspec(thread)\n#elif __APPLE__\n#define thread_local __thread\n#endif\n\nstatic thread_local bool __dredd_some_mutation_enabled = true;\nstatic bool __dredd_enabled_mutation(int local_mutation_id) {\n  static thread_local bool initialized = false;\n  static thread_local uint64_t enabled_bitset[1];\n  if (!initialized) {\n    bool some_mutation_enabled = false;\n    const char* dredd_environment_variable = std::getenv(\"DREDD_ENABLED_MUTATION\");\n    if (dredd_environment_variable != nullptr) {\n      std::string contents(dredd_environment_variable);\n      while (true) {\n        size_t pos = contents.find(\",\");\n        std::string token = (pos == std::string::npos ? contents : contents.substr(0, pos));\n        if (!token.empty()) {\n          int value = std::stoi(token);\n          int local_value = value - 0;\n          if (local_value >= 0 && local_value < 6) {\n            enabled_bitset[local_value / 64] |= (static_cast<uint64_t>(1) << (local_value % 64));\n            some_mutation_enabled = true;\n          }\n        }\n        if (pos == std::string::npos) {\n          break;\n        }\n        contents.erase(0, pos + 1);\n      }\n    }\n    initialized = true;\n    __dredd_some_mutation_enabled = some_mutation_enabled;\n  }\n  return (enabled_bitset[local_mutation_id / 64] & (static_cast<uint64_t>(1) << (local_mutation_id % 64))) != 0;\n}\n\nstatic int __dredd_replace_expr_int_constant(int arg, int local_mutation_id) {\n  if (!__dredd_some_mutation_enabled) return arg;\n  if (__dredd_enabled_mutation(local_mutation_id + 0)) return ~(arg);\n  if (__dredd_enabled_mutation(local_mutation_id + 1)) return -(arg);\n  if (__dredd_enabled_mutation(local_mutation_id + 2)) return 0;\n  if (__dredd_enabled_mutation(local_mutation_id + 3)) return 1;\n  if (__dredd_enabled_mutation(local_mutation_id + 4)) return -1;\n  return arg;\n}\n\nvoid foo() {\n  const int x = __dredd_replace_expr_int_constant(42, 0);\n  if (!__dredd_enabled_mutation(5)) { __builtin_frame_address(42); }\n}\n"
    noopt := "// DREDD PRELUDE START\n// If this has been inserted at an inappropriate place in a source file,\n// declare a placeholder function with the following signature to\n// mandate where the prelude should be placed:\n//\n// void __dredd_prelude_start();\n//\n#include <atomic>\n#include <cinttypes>\n#include <cstddef>\n#include <fstream>\n#include <functional>\n#include <sstream>\n#include <string>\n\n\n#ifdef _MSC_VER\n#define thread_local __declspec(thread)\n#elif __APPLE__\n#define thread_local __thread\n#endif\n\nstatic thread_local bool __dredd_some_mutation_enabled = true;\nstatic bool __dredd_enabled_mutation(int local_mutation_id) {\n  static thread_local bool initialized = false;\n  static thread_local uint64_t enabled_bitset[1];\n  if (!initialized) {\n    bool some_mutation_enabled = false;\n    const char* dredd_environment_variable = std::getenv(\"DREDD_ENABLED_MUTATION\");\n    if (dredd_environment_variable != nullptr) {\n      std::string contents(dredd_environment_variable);\n      while (true) {\n        size_t pos = contents.find(\",\");\n        std::string token = (pos == std::string::npos ? contents : contents.substr(0, pos));\n        if (!token.empty()) {\n          int value = std::stoi(token);\n          int local_value = value - 0;\n          if (local_value >= 0 && local_value < 7) {\n            enabled_bitset[local_value / 64] |= (static_cast<uint64_t>(1) << (local_value % 64));\n            some_mutation_enabled = true;\n          }\n        }\n        if (pos == std::string::npos) {\n          break;\n        }\n        contents.erase(0, pos + 1);\n      }\n    }\n    initialized = true;\n    __dredd_some_mutation_enabled = some_mutation_enabled;\n  }\n  return (enabled_bitset[local_mutation_id / 64] & (static_cast<uint64_t>(1) << (local_mutation_id % 64))) != 0;\n}\n\nstatic int __dredd_replace_expr_int(int arg, int local_mutation_id) {\n  if (!__dredd_some_mutation_enabled) return arg;\n  if (__dredd_enabled_mutation(local_mutation_id + 0)) return !(arg);\n  if (__dredd_enabled_mutation(local_mutation_id + 1)) return ~(arg);\n  if (__dredd_enabled_mutation(local_mutation_id + 2)) return -(arg);\n  if (__dredd_enabled_mutation(local_mutation_id + 3)) return 0;\n  if (__dredd_enabled_mutation(local_mutation_id + 4)) return 1;\n  if (__dredd_enabled_mutation(local_mutation_id + 5)) return -1;\n  return arg;\n}\n\nvoid foo() {\n  const int x = __dredd_replace_expr_int(42, 0);\n  if (!__dredd_enabled_mutation(6)) { __builtin_frame_address(42); }\n}\n" }

#guard builtin_frame_address_with_argument_rewrite_cc.ok

/-- test/single_file/comma.c -/
def comma_c : Case :=
  let src : Text := t!"int main() {\n  int x = 1;\n  int y = 2;\n  return x, y;\n}\n"
  { name := "comma.c", lang := c, src := src, ast :=
    .decl ⟨.tu, none⟩ [
     .decl ⟨.func false none, (some ⟨0, 55⟩)⟩ [
      st src .compound .plain (some ⟨11, 55⟩) [
       st src .declStmt .plain (some ⟨15, 25⟩) [
        .decl ⟨.var ⟨19, false, [], [], false, false, false⟩, (some ⟨15, 24⟩)⟩ [
         ex src .other (some .int) .plain 23 (some ⟨23, 24⟩) (fun f => { f with intVal := some 1, boolVal := some true }) []]],
       st src .declStmt .plain (some ⟨28, 38⟩) [
        .decl ⟨.var ⟨32, false, [], [], false, false, false⟩, (some ⟨28, 37⟩)⟩ [
         ex src .other (some .int) .plain 36 (some ⟨36, 37⟩) (fun f => { f with intVal := some 2, boolVal := some true }) []]],
       st src .other .plain (some ⟨41, 52⟩) [
        ex src (.binary .comma) (some .int) .plain 48 (some ⟨48, 52⟩) (fun f => { f with opOff := some 49 }) [
         ex src (.cast true false) (some .int) .lhs 48 (some ⟨48, 49⟩) id [
          ex src .other (some .int) .operand 48 (some ⟨48, 49⟩) (fun f => { f with lvalue := true }) []],
         ex src (.cast true false) (some .int) .rhs 51 (some ⟨51, 52⟩) id [
          ex src .other (some .int) .operand 51 (some ⟨51, 52⟩) (fun f => { f with lvalue := true }) []]]]]]]
    expected := "// DREDD PRELUDE START\n// If this has been inserted at an inappropriate place in a source file,\n// declare a placeholder function with the following signature to\n// mandate where the prelude should be placed:\n//\n// void __dredd_prelude_start();\n//\n#include <inttypes.h>\n#include <stdatomic.h>\n#include <stdbool.h>\n#include <stdio.h>\n#include <stdlib.h>\n#include <string.h>\n\n#ifdef _MSC_VER\n#define thread_local __declspec(thread)\n#elif __APPLE__\n#define thread_local __thread\n#else\n#include <threads.h>\n#endif\n\nstatic thread_local int __dredd_some_mutation_enabled = 1;\nstatic bool __dredd_enabled_mutation(int local_mutation_id) {\n  static thread_local int initialized = 0;\n  static thread_local uint64_t enabled_bitset[1];\n  if (!initialized) {\n    int some_mutation_enabled = 0;\n    const char* dredd_environment_variable = getenv(\"DREDD_ENABLED_MUTATION\");\n    if (dredd_environment_variable) {\n      char* temp = malloc(strlen(dredd_environment_variable) + 1);\n      strcpy(temp, dredd_environment_variable);\n      char* token;\n      token = strtok(temp, \",\");\n      while(token) {\n        int value = atoi(token);\n        int local_value = value - 0;\n        if (local_value >= 0 && local_value < 31) {\n          enabled_bitset[local_value / 64] |= ((uint64_t) 1 << (local_value % 64));\n          some_mutation_enabled = 1;\n        }\n        token = strtok(NULL, \",\");\n      }\n      free(temp);\n    }\n    initialized = 1;\n    __dredd_some_mutation_enabled = some_mutation_enabled;\n  }\n  return enabled_bitset[local_mutation_id / 64] & ((uint64_t) 1 << (local_mutation_id % 64));\n}\n\nstatic int __dredd_replace_expr_int_one(int arg, int local_mutation_id) {\n  if (!__dredd_some_mutation_enabled) return arg;\n  if (__dredd_enabled_mutation(local_mutation_id + 0)) return ~(arg);\n  if (__dredd_enabled_mutation(local_mutation_id + 1)) return 0;\n  if (__dredd_enabled_mutation(local_mutation_id + 2)) return -1;\n  return arg;\n}\n\nstatic int __dredd_replace_expr_int_lvalue(int* arg, int local_mutation_id) {\n  if (!__dredd_some_mutation_enabled) return (*arg);\n  if (__dredd_enabled_mutation(local_mutation_id + 0)) return ++((*arg));\n  if (__dredd_enabled_mutation(local_mutation_id + 1)) return --((*arg));\n  return (*arg);\n}\n\nstatic int __dredd_replace_expr_int_constant(int arg, int local_mutation_id) {\n  if (!__dredd_some_mutation_enabled) return arg;\n  if (__dredd_enabled_mutation(local_mutation_id + 0)) return ~(arg);\n  if (__dredd_enabled_mutation(local_mutation_id + 1)) return -(arg);\n  if (__dredd_enabled_mutation(local_mutation_id + 2)) return 0;\n  if (__dredd_enabled_mutation(local_mutation_id + 3)) return 1;\n  if (__dredd_enabled_mutation(local_mutation_id + 4)) return -1;\n  return arg;\n}\n\nstatic int __dredd_replace_expr_int(int arg, int local_mutation_id) {\n  if (!__dredd_some_mutation_enabled) return arg;\n  if (__dredd_enabled_mutation(local_mutation_id + 0)) return !(arg);\n  if (__dredd_enabled_mutation(local_mutation_id + 1)) return ~(arg);\n  if (__dredd_enabled_mutation(local_mutation_id + 2)) return -(arg);\n  if (__dredd_enabled_mutation(local_mutation_id + 3)) return 0;\n  if (__dredd_enabled_mutation(local_mutation_id + 4)) return 1;\n  if (__dredd_enabled_mutation(local_mutation_id + 5)) return -1;\n  return arg;\n}\n\nint main() {\n  int x = __dredd_replace_expr_int_one(1, 0);\n  int y = __dredd_replace_expr_int_constant(2, 3);\n  if (!__dredd_enabled_mutation(30)) { return __dredd_replace_expr_int((__dredd_replace_expr_int(__dredd_replace_expr_int_lvalue(&(x), 8), 10), __dredd_replace_expr_int(__dredd_replace_expr_int_lvalue(&(y), 16), 18)), 24); }\n}\n"
    noopt := "// DREDD PRELUDE START\n// If this has been inserted at an inappropriate place in a source file,\n// declare a placeholder function with the following signature to\n// mandate where the prelude should be placed:\n//\n// void __dredd_prelude_start();\n//\n#include <inttypes.h>\n#include <stdatomic.h>\n#include <stdbool.h>\n#include <stdio.h>\n#include <stdlib.h>\n#include <string.h>\n\n#ifdef _MSC_VER\n#define thread_local __declspec(thread)\n#elif __APPLE__\n#define thread_local __thread\n#else\n#include <threads.h>\n#endif\n\nstatic thread_local int __dredd_some_mutation_enabled = 1;\nstatic bool __dredd_enabled_mutation(int local_mutation_id) {\n  static thread_local int initialized = 0;\n  static thread_local uint64_t enabled_bitset[1];\n  if (!initialized) {\n    int some_mutation_enabled = 0;\n    const char* dredd_environment_variable = getenv(\"DREDD_ENABLED_MUTATION\");\n    if (dredd_environment_variable) {\n      char* temp = malloc(strlen(dredd_environment_variable) + 1);\n      strcpy(temp, dredd_environment_variable);\n      char* token;\n      token = strtok(temp, \",\");\n      while(token) {\n        int value = atoi(token);\n        int local_value = value - 0;\n        if (local_value >= 0 && local_value < 35) {\n          enabled_bitset[local_value / 64] |= ((uint64_t) 1 << (local_value % 64));\n          some_mutation_enabled = 1;\n        }\n        token = strtok(NULL, \",\");\n      }\n      free(temp);\n    }\n    initialized = 1;\n    __dredd_some_mutation_enabled = some_mutation_enabled;\n  }\n  return enabled_bitset[local_mutation_id / 64] & ((uint64_t) 1 << (local_mutation_id % 64));\n}\n\nstatic int __dredd_replace_expr_int_lvalue(int* arg, int local_mutation_id) {\n  if (!__dredd_some_mutation_enabled) return (*arg);\n  if (__dredd_enabled_mutation(local_mutation_id + 0)) return ++((*arg));\n  if (__dredd_enabled_mutation(local_mutation_id + 1)) return --((*arg));\n  return (*arg);\n}\n\nstatic int __dredd_replace_expr_int(int arg, int local_mutation_id) {\n  if (!__dredd_some_mutation_enabled) return arg;\n  if (__dredd_enabled_mutation(local_mutation_id + 0)) return !(arg);\n  if (__dredd_enabled_mutation(local_mutation_id + 1)) return ~(arg);\n  if (__dredd_enabled_mutation(local_mutation_id + 2)) return -(arg);\n  if (__dredd_enabled_mutation(local_mutation_id + 3)) return 0;\n  if (__dredd_enabled_mutation(local_mutation_id + 4)) return 1;\n  if (__dredd_enabled_mutation(local_mutation_id + 5)) return -1;\n  return arg;\n}\n\nint main() {\n  int x = __dredd_replace_expr_int(1, 0);\n  int y = __dredd_replace_expr_int(2, 6);\n  if (!__dredd_enabled_mutation(34)) { return __dredd_replace_expr_int((__dredd_replace_expr_int(__dredd_replace_expr_int_lvalue(&(x), 12), 14), __dredd_replace_expr_int(__dredd_replace_expr_int_lvalue(&(y), 20), 22)), 28); }\n}\n" }

#guard comma_c.ok

/-- test/single_file/comma_initialization.c -/
def comma_initialization_c : Case :=
  let src : Text := t!"int main() {\n int x = (1,0);\n}\n"
  { name := "comma_initialization.c", lang := c, src := src, ast :=
    .decl ⟨.tu, none⟩ [
     .decl ⟨.func false none, (some ⟨0, 30⟩)⟩ [
      st src .compound .plain (some ⟨11, 30⟩) [
       st src .declStmt .plain (some ⟨14, 28⟩) [
        .decl ⟨.var ⟨18, false, [], [], false, false, false⟩, (some ⟨14, 27⟩)⟩ [
         ex src .paren (some .int) .plain 22 (some ⟨22, 27⟩) (fun f => { f with intVal := some 0, boolVal := some false }) [
          ex src (.binary .comma) (some .int) .plain 23 (some ⟨23, 26⟩) (fun f => { f with intVal := some 0, boolVal := some false, opOff := some 24 }) [
           ex src .other (some .int) .lhs 23 (some ⟨23, 24⟩) (fun f => { f with intVal := some 1, boolVal := some true }) [],
           ex src .other (some .int) .rhs 25 (some ⟨25, 26⟩) (fun f => { f with intVal := some 0, boolVal := some false, nullConst := true }) []]]]]]]]
    expected := "// DREDD PRELUDE START\n// If this has been inserted at an inappropriate place in a source file,\n// declare a placeholder function with the following signature to\n// mandate where the prelude should be placed:\n//\n// void __dredd_prelude_start();\n//\n#include <inttypes.h>\n#include <stdatomic.h>\n#include <stdbool.h>\n#include <stdio.h>\n#include <stdlib.h>\n#include <string.h>\n\n#ifdef _MSC_VER\n#define thread_local __declspec(thread)\n#elif __APPLE__\n#define thread_local __thread\n#else\n#include <threads.h>\n#endif\n\nstatic thread_local int __dredd_some_mutation_enabled = 1;\nstatic bool __dredd_enabled_mutation(int local_mutation_id) {\n  static thread_local int initialized = 0;\n  static thread_local uint64_t enabled_bitset[1];\n  if (!initialized) {\n    int some_mutation_enabled = 0;\n    const char* dredd_environment_variable = getenv(\"DREDD_ENABLED_MUTATION\");\n    if (dredd_environment_variable) {\n      char* temp = malloc(strlen(dredd_environment_variable) + 1);\n      strcpy(temp, dredd_environment_variable);\n      char* token;\n      token = strtok(temp, \",\");\n      while(token) {\n        int value = atoi(token);\n        int local_value = value - 0;\n        if (local_value >= 0 && local_value < 7) {\n          enabled_bitset[local_value / 64] |= ((uint64_t) 1 << (local_value % 64));\n          some_mutation_enabled = 1;\n        }\n        token = strtok(NULL, \",\");\n      }\n      free(temp);\n    }\n    initialized = 1;\n    __dredd_some_mutation_enabled = some_mutation_enabled;\n  }\n  return enabled_bitset[local_mutation_id / 64] & ((uint64_t) 1 << (local_mutation_id % 64));\n}\n\nstatic int __dredd_replace_expr_int_zero(int arg, int local_mutation_id) {\n  if (!__dredd_some_mutation_enabled) return arg;\n  if (__dredd_enabled_mutation(local_mutation_id + 0)) return 1;\n  if (__dredd_enabled_mutation(local_mutation_id + 1)) return -1;\n  return arg;\n}\n\nstatic int __dredd_replace_expr_int_one(int arg, int local_mutation_id) {\n  if (!__dredd_some_mutation_enabled) return arg;\n  if (__dredd_enabled_mutation(local_mutation_id + 0)) return ~(arg);\n  if (__dredd_enabled_mutation(local_mutation_id + 1)) return 0;\n  if (__dredd_enabled_mutation(local_mutation_id + 2)) return -1;\n  return arg;\n}\n\nint main() {\n int x = (__dredd_replace_expr_int_zero((__dredd_replace_expr_int_one(1, 0),__dredd_replace_expr_int_zero(0, 3)), 5));\n}\n"
    noopt := "// DREDD PRELUDE START\n// If this has been inserted at an inappropriate place in a source file,\n// declare a placeholder function with the following signature to\n// mandate where the prelude should be placed:\n//\n// void __dredd_prelude_start();\n//\n#include <inttypes.h>\n#include <stdatomic.h>\n#include <stdbool.h>\n#include <stdio.h>\n#include <stdlib.h>\n#include <string.h>\n\n#ifdef _MSC_VER\n#define thread_local __declspec(thread)\n#elif __APPLE__\n#define thread_local __thread\n#else\n#include <threads.h>\n#endif\n\nstatic thread_local int __dredd_some_mutation_enabled = 1;\nstatic bool __dredd_enabled_mutation(int local_mutation_id) {\n  static thread_local int initialized = 0;\n  static thread_local uint64_t enabled_bitset[1];\n  if (!initialized) {\n    int some_mutation_enabled = 0;\n    const char* dredd_environment_variable = getenv(\"DREDD_ENABLED_MUTATION\");\n    if (dredd_environment_variable) {\n      char* temp = malloc(strlen(dredd_environment_variable) + 1);\n      strcpy(temp, dredd_environment_variable);\n      char* token;\n      token = strtok(temp, \",\");\n      while(token) {\n        int value = atoi(token);\n        int local_value = value - 0;\n        if (local_value >= 0 && local_value < 24) {\n          enabled_bitset[local_value / 64] |= ((uint64_t) 1 << (local_value % 64));\n          some_mutation_enabled = 1;\n        }\n        token = strtok(NULL, \",\");\n      }\n      free(temp);\n    }\n    initialized = 1;\n    __dredd_some_mutation_enabled = some_mutation_enabled;\n  }\n  return enabled_bitset[local_mutation_id / 64] & ((uint64_t) 1 << (local_mutation_id % 64));\n}\n\nstatic int __dredd_replace_expr_int(int arg, int local_mutation_id) {\n  if (!__dredd_some_mutation_enabled) return arg;\n  if (__dredd_enabled_mutation(local_mutation_id + 0)) return !(arg);\n  if (__dredd_enabled_mutation(local_mutation_id + 1)) return ~(arg);\n  if (__dredd_enabled_mutation(local_mutation_id + 2)) return -(arg);\n  if (__dredd_enabled_mutation(local_mutation_id + 3)) return 0;\n  if (__dredd_enabled_mutation(local_mutation_id + 4)) return 1;\n  if (__dredd_enabled_mutation(local_mutation_id + 5)) return -1;\n  return arg;\n}\n\nint main() {\n int x = __dredd_replace_expr_int((__dredd_replace_expr_int((__dredd_replace_expr_int(1, 0),__dredd_replace_expr_int(0, 6)), 12)), 18);\n}\n" }

#guard comma_initialization_c.ok

/-- test/single_file/comma_initialization.cc -/
def comma_initialization_cc : Case :=
  let src : Text := t!"int main() {\n  int b((1,0));\n}\n"
  { name := "comma_initialization.cc", lang := cpp, src := src, ast :=
    .decl ⟨.tu, none⟩ [
     .decl ⟨.func false none, (some ⟨0, 30⟩)⟩ [
      st src .compound .plain (some ⟨11, 30⟩) [
       st src .declStmt .plain (some ⟨15, 28⟩) [
        .decl ⟨.var ⟨19, false, [], [], false, false, false⟩, (some ⟨15, 27⟩)⟩ [
         ex src .paren (some .int) .plain 21 (some ⟨21, 26⟩) (fun f => { f with intVal := some 0, boolVal := some false, cxx11Const := true }) [
          ex src (.binary .comma) (some .int) .plain 22 (some ⟨22, 25⟩) (fun f => { f with intVal := some 0, boolVal := some false, cxx11Const := true, opOff := some 23 }) [
           ex src .other (some .int) .lhs 22 (some ⟨22, 23⟩) (fun f => { f with intVal := some 1, boolVal := some true, cxx11Const := true }) [],
           ex src .other (some .int) .rhs 24 (some ⟨24, 25⟩) (fun f => { f with intVal := some 0, boolVal := some false, cxx11Const := true, nullConst := true }) []]]]]]]]
    expected := "// DREDD PRELUDE START\n// If this has been inserted at an inappropriate place in a source file,\n// declare a placeholder function with the following signature to\n// mandate where the prelude should be placed:\n//\n// void __dredd_prelude_start();\n//\n#include <atomic>\n#include <cinttypes>\n#include <cstddef>\n#include <fstream>\n#include <functional>\n#include <sstream>\n#include <string>\n\n\n#ifdef _MSC_VER\n#define thread_local __declspec(thread)\n#elif __APPLE__\n#define thread_local __thread\n#endif\n\nstatic thread_local bool __dredd_some_mutation_enabled = true;\nstatic bool __dredd_enabled_mutation(int local_mutation_id) {\n  static thread_local bool initialized = false;\n  static thread_local uint64_t enabled_bitset[1];\n  if (!initialized) {\n    bool some_mutation_enabled = false;\n    const char* dredd_environment_variable = std::getenv(\"DREDD_ENABLED_MUTATION\");\n    if (dredd_environment_variable != nullptr) {\n      std::string contents(dredd_environment_variable);\n      while (true) {\n        size_t pos = contents.find(\",\");\n        std::string token = (pos == std::string::npos ? contents : contents.substr(0, pos));\n        if (!token.empty()) {\n          int value = std::stoi(token);\n          int local_value = value - 0;\n          if (local_value >= 0 && local_value < 7) {\n            enabled_bitset[local_value / 64] |= (static_cast<uint64_t>(1) << (local_value % 64));\n            some_mutation_enabled = true;\n          }\n        }\n        if (pos == std::string::npos) {\n          break;\n        }\n        contents.erase(0, pos + 1);\n      }\n    }\n    initialized = true;\n    __dredd_some_mutation_enabled = some_mutation_enabled;\n  }\n  return (enabled_bitset[local_mutation_id / 64] & (static_cast<uint64_t>(1) << (local_mutation_id % 64))) != 0;\n}\n\nstatic int __dredd_replace_expr_int_zero(int arg, int local_mutation_id) {\n  if (!__dredd_some_mutation_enabled) return arg;\n  if (__dredd_enabled_mutation(local_mutation_id + 0)) return 1;\n  if (__dredd_enabled_mutation(local_mutation_id + 1)) return -1;\n  return arg;\n}\n\nstatic int __dredd_replace_expr_int_one(int arg, int local_mutation_id) {\n  if (!__dredd_some_mutation_enabled) return arg;\n  if (__dredd_enabled_mutation(local_mutation_id + 0)) return ~(arg);\n  if (__dredd_enabled_mutation(local_mutation_id + 1)) return 0;\n  if (__dredd_enabled_mutation(local_mutation_id + 2)) return -1;\n  return arg;\n}\n\nint main() {\n  int b((__dredd_replace_expr_int_zero((__dredd_replace_expr_int_one(1, 0),__dredd_replace_expr_int_zero(0, 3)), 5)));\n}\n"
    noopt := "// DREDD PRELUDE START\n// If this has been inserted at an inappropriate place in a source file,\n// declare a placeholder function with the following signature to\n// mandate where the prelude should be placed:\n//\n// void __dredd_prelude_start();\n//\n#include <atomic>\n#include <cinttypes>\n#include <cstddef>\n#include <fstream>\n#include <functional>\n#include <sstream>\n#include <string>\n\n\n#ifdef _MSC_VER\n#define thread_local __declspec(thread)\n#elif __APPLE__\n#define thread_local __thread\n#endif\n\nstatic thread_local bool __dredd_some_mutation_enabled = true;\nstatic bool __dredd_enabled_mutation(int local_mutation_id) {\n  static thread_local bool initialized = false;\n  static thread_local uint64_t enabled_bitset[1];\n  if (!initialized) {\n    bool some_mutation_enabled = false;\n    const char* dredd_environment_variable = std::getenv(\"DREDD_ENABLED_MUTATION\");\n    if (dredd_environment_variable != nullptr) {\n      std::string contents(dredd_environment_variable);\n      while (true) {\n        size_t pos = contents.find(\",\");\n        std::string token = (pos == std::string::npos ? contents : contents.substr(0, pos));\n        if (!token.empty()) {\n          int value = std::stoi(token);\n          int local_value = value - 0;\n          if (local_value >= 0 && local_value < 24) {\n            enabled_bitset[local_value / 64] |= (static_cast<uint64_t>(1) << (local_value % 64));\n            some_mutation_enabled = true;\n          }\n        }\n        if (pos == std::string::npos) {\n          break;\n        }\n        contents.erase(0, pos + 1);\n      }\n    }\n    initialized = true;\n    __dredd_some_mutation_enabled = some_mutation_enabled;\n  }\n  return (enabled_bitset[local_mutation_id / 64] & (static_cast<uint64_t>(1) << (local_mutation_id % 64))) != 0;\n}\n\nstatic int __dredd_replace_expr_int(int arg, int local_mutation_id) {\n  if (!__dredd_some_mutation_enabled) return arg;\n  if (__dredd_enabled_mutation(local_mutation_id + 0)) return !(arg);\n  if (__dredd_enabled_mutation(local_mutation_id + 1)) return ~(arg);\n  if (__dredd_enabled_mutation(local_mutation_id + 2)) return -(arg);\n  if (__dredd_enabled_mutation(local_mutation_id + 3)) return 0;\n  if (__dredd_enabled_mutation(local_mutation_id + 4)) return 1;\n  if (__dredd_enabled_mutation(local_mutation_id + 5)) return -1;\n  return arg;\n}\n\nint main() {\n  int b(__dredd_replace_expr_int((__dredd_replace_expr_int((__dredd_replace_expr_int(1, 0),__dredd_replace_expr_int(0, 6)), 12)), 18));\n}\n" }

#guard comma_initialization_cc.ok

/-- test/single_file/comment.cc -/
def comment_cc : Case :=
  let src : Text := t!"void g();\n\nvoid f()\n{\n  g() /* something */ ;\n  g() // something\n;\n\n  if(true) {\n\n  }\n  // something\n  if(true) {\n\n  } /* something */\n}\n"
  { name := "comment.cc", lang := cpp, src := src, ast :=
    .decl ⟨.tu, none⟩ [
     .decl ⟨.func false none, (some ⟨0, 8⟩)⟩ [],
     .decl ⟨.func false none, (some ⟨11, 136⟩)⟩ [
      st src .compound .plain (some ⟨20, 136⟩) [
       ex src (.call none false false) none .plain 24 (some ⟨24, 27⟩) (fun f => { f with sideEffects := true }) [
        ex src (.cast true false) none .plain 24 (some ⟨24, 25⟩) (fun f => { f with anyPointer := true, pointer := true }) [
         ex src .other none .operand 24 (some ⟨24, 25⟩) (fun f => { f with lvalue := true }) []]],
       ex src (.call none false false) none .plain 48 (some ⟨48, 51⟩) (fun f => { f with sideEffects := true }) [
        ex src (.cast true false) none .plain 48 (some ⟨48, 49⟩) (fun f => { f with anyPointer := true, pointer := true }) [
         ex src .other none .operand 48 (some ⟨48, 49⟩) (fun f => { f with lvalue := true }) []]],
       st src (.if_ false) .plain (some ⟨70, 85⟩) [
        ex src .other (some .bool) .ifCond 73 (some ⟨73, 77⟩) (fun f => { f with intVal := some 1, boolVal := some true, cxx11Const := true }) [],
        st src .compound .plain (some ⟨79, 85⟩) []],
       st src (.if_ false) .plain (some ⟨103, 118⟩) [
        ex src .other (some .bool) .ifCond 106 (some ⟨106, 110⟩) (fun f => { f with intVal := some 1, boolVal := some true, cxx11Const := true }) [],
        st src .compound .plain (some ⟨112, 118⟩) []]]]]
    expected := "// DREDD PRELUDE START\n// If this has been inserted at an inappropriate place in a source file,\n// declare a placeholder function with the following signature to\n// mandate where the prelude should be placed:\n//\n// void __dredd_prelude_start();\n//\n#include <atomic>\n#include <cinttypes>\n#include <cstddef>\n#include <fstream>\n#include <functional>\n#include <sstream>\n#include <string>\n\n\n#ifdef _MSC_VER\n#define thread_local __declspec(thread)\n#elif __APPLE__\n#define thread_local __thread\n#endif\n\nstatic thread_local bool __dredd_some_mutation_enabled = true;\nstatic bool __dredd_enabled_mutation(int local_mutation_id) {\n  static thread_local bool initialized = false;\n  static thread_local uint64_t enabled_bitset[1];\n  if (!initialized) {\n    bool some_mutation_enabled = false;\n    const char* dredd_environment_variable = std::getenv(\"DREDD_ENABLED_MUTATION\");\n    if (dredd_environment_variable != nullptr) {\n      std::string contents(dredd_environment_variable);\n      while (true) {\n        size_t pos = contents.find(\",\");\n        std::string token = (pos == std::string::npos ? contents : contents.substr(0, pos));\n        if (!token.empty()) {\n          int value = std::stoi(token);\n          int local_value = value - 0;\n          if (local_value >= 0 && local_value < 6) {\n            enabled_bitset[local_value / 64] |= (static_cast<uint64_t>(1) << (local_value % 64));\n            some_mutation_enabled = true;\n          }\n        }\n        if (pos == std::string::npos) {\n          break;\n        }\n        contents.erase(0, pos + 1);\n      }\n    }\n    initialized = true;\n    __dredd_some_mutation_enabled = some_mutation_enabled;\n  }\n  return (enabled_bitset[local_mutation_id / 64] & (static_cast<uint64_t>(1) << (local_mutation_id % 64))) != 0;\n}\n\nstatic bool __dredd_replace_expr_bool_true(bool arg, int local_mutation_id) {\n  if (!__dredd_some_mutation_enabled) return arg;\n  if (__dredd_enabled_mutation(local_mutation_id + 0)) return false;\n  return arg;\n}\n\nvoid g();\n\nvoid f()\n{\n  if (!__dredd_enabled_mutation(0)) { g() /* something */ ; }\n  if (!__dredd_enabled_mutation(1)) { g() // something\n; }\n\n  if (!__dredd_enabled_mutation(3)) { if(__dredd_replace_expr_bool_true(true, 2)) {\n\n  }\n  // something\n }\n  if (!__dredd_enabled_mutation(5)) { if(__dredd_replace_expr_bool_true(true, 4)) {\n\n  } /* something */\n }\n}\n"
    noopt := "// DREDD PRELUDE START\n// If this has been inserted at an inappropriate place in a source file,\n// declare a placeholder function with the following signature to\n// mandate where the prelude should be placed:\n//\n// void __dredd_prelude_start();\n//\n#include <atomic>\n#include <cinttypes>\n#include <cstddef>\n#include <fstream>\n#include <functional>\n#include <sstream>\n#include <string>\n\n\n#ifdef _MSC_VER\n#define thread_local __declspec(thread)\n#elif __APPLE__\n#define thread_local __thread\n#endif\n\nstatic thread_local bool __dredd_some_mutation_enabled = true;\nstatic bool __dredd_enabled_mutation(int local_mutation_id) {\n  static thread_local bool initialized = false;\n  static thread_local uint64_t enabled_bitset[1];\n  if (!initialized) {\n    bool some_mutation_enabled = false;\n    const char* dredd_environment_variable = std::getenv(\"DREDD_ENABLED_MUTATION\");\n    if (dredd_environment_variable != nullptr) {\n      std::string contents(dredd_environment_variable);\n      while (true) {\n        size_t pos = contents.find(\",\");\n        std::string token = (pos == std::string::npos ? contents : contents.substr(0, pos));\n        if (!token.empty()) {\n          int value = std::stoi(token);\n          int local_value = value - 0;\n          if (local_value >= 0 && local_value < 10) {\n            enabled_bitset[local_value / 64] |= (static_cast<uint64_t>(1) << (local_value % 64));\n            some_mutation_enabled = true;\n          }\n        }\n        if (pos == std::string::npos) {\n          break;\n        }\n        contents.erase(0, pos + 1);\n      }\n    }\n    initialized = true;\n    __dredd_some_mutation_enabled = some_mutation_enabled;\n  }\n  return (enabled_bitset[local_mutation_id / 64] & (static_cast<uint64_t>(1) << (local_mutation_id % 64))) != 0;\n}\n\nstatic bool __dredd_replace_expr_bool(bool arg, int local_mutation_id) {\n  if (!__dredd_some_mutation_enabled) return arg;\n  if (__dredd_enabled_mutation(local_mutation_id + 0)) return !(arg);\n  if (__dredd_enabled_mutation(local_mutation_id + 1)) return true;\n  if (__dredd_enabled_mutation(local_mutation_id + 2)) return false;\n  return arg;\n}\n\nvoid g();\n\nvoid f()\n{\n  if (!__dredd_enabled_mutation(0)) { g() /* something */ ; }\n  if (!__dredd_enabled_mutation(1)) { g() // something\n; }\n\n  if (!__dredd_enabled_mutation(5)) { if(__dredd_replace_expr_bool(true, 2)) {\n\n  }\n  // something\n }\n  if (!__dredd_enabled_mutation(9)) { if(__dredd_replace_expr_bool(true, 6)) {\n\n  } /* something */\n }\n}\n" }

#guard comment_cc.ok

/-- test/single_file/comment_at_start_of_file.cc -/
def comment_at_start_of_file_cc : Case :=
  let src : Text := t!"// Hello\n\nint main() {\n  return 42;\n}\n"
  { name := "comment_at_start_of_file.cc", lang := cpp, src := src, ast :=
    .decl ⟨.tu, none⟩ [
     .decl ⟨.func false none, (some ⟨10, 37⟩)⟩ [
      st src .compound .plain (some ⟨21, 37⟩) [
       st src .other .plain (some ⟨25, 34⟩) [
        ex src .other (some .int) .plain 32 (some ⟨32, 34⟩) (fun f => { f with intVal := some 42, boolVal := some true, cxx11Const := true }) []]]]]
    expected := "// DREDD PRELUDE START\n// If this has been inserted at an inappropriate place in a source file,\n// declare a placeholder function with the following signature to\n// mandate where the prelude should be placed:\n//\n// void __dredd_prelude_start();\n//\n#include <atomic>\n#include <cinttypes>\n#include <cstddef>\n#include <fstream>\n#include <functional>\n#include <sstream>\n#include <string>\n\n\n#ifdef _MSC_VER\n#define thread_local __declspec(thread)\n#elif __APPLE__\n#define thread_local __thread\n#endif\n\nstatic thread_local bool __dredd_some_mutation_enabled = true;\nstatic bool __dredd_enabled_mutation(int local_mutation_id) {\n  static thread_local bool initialized = false;\n  static thread_local uint64_t enabled_bitset[1];\n  if (!initialized) {\n    bool some_mutation_enabled = false;\n    const char* dredd_environment_variable = std::getenv(\"DREDD_ENABLED_MUTATION\");\n    if (dredd_environment_variable != nullptr) {\n      std::string contents(dredd_environment_variable);\n      while (true) {\n        size_t pos = contents.find(\",\");\n        std::string token = (pos == std::string::npos ? contents : contents.substr(0, pos));\n        if (!token.empty()) {\n          int value = std::stoi(token);\n          int local_value = value - 0;\n          if (local_value >= 0 && local_value < 6) {\n            enabled_bitset[local_value / 64] |= (static_cast<uint64_t>(1) << (local_value % 64));\n            some_mutation_enabled = true;\n          }\n        }\n        if (pos == std::string::npos) {\n          break;\n        }\n        contents.erase(0, pos + 1);\n      }\n    }\n    initialized = true;\n    __dredd_some_mutation_enabled = some_mutation_enabled;\n  }\n  return (enabled_bitset[local_mutation_id / 64] & (static_cast<uint64_t>(1) << (local_mutation_id % 64))) != 0;\n}\n\nstatic int __dredd_replace_expr_int_constant(int arg, int local_mutation_id) {\n  if (!__dredd_some_mutation_enabled) return arg;\n  if (__dredd_enabled_mutation(local_mutation_id + 0)) return ~(arg);\n  if (__dredd_enabled_mutation(local_mutation_id + 1)) return -(arg);\n  if (__dredd_enabled_mutation(local_mutation_id + 2)) return 0;\n  if (__dredd_enabled_mutation(local_mutation_id + 3)) return 1;\n  if (__dredd_enabled_mutation(local_mutation_id + 4)) return -1;\n  return arg;\n}\n\n// Hello\n\nint main() {\n  if (!__dredd_enabled_mutation(5)) { return __dredd_replace_expr_int_constant(42, 0); }\n}\n"
    noopt := "// DREDD PRELUDE START\n// If this has been inserted at an inappropriate place in a source file,\n// declare a placeholder function with the following signature to\n// mandate where the prelude should be placed:\n//\n// void __dredd_prelude_start();\n//\n#include <atomic>\n#include <cinttypes>\n#include <cstddef>\n#include <fstream>\n#include <functional>\n#include <sstream>\n#include <string>\n\n\n#ifdef _MSC_VER\n#define thread_local __declspec(thread)\n#elif __APPLE__\n#define thread_local __thread\n#endif\n\nstatic thread_local bool __dredd_some_mutation_enabled = true;\nstatic bool __dredd_enabled_mutation(int local_mutation_id) {\n  static thread_local bool initialized = false;\n  static thread_local uint64_t enabled_bitset[1];\n  if (!initialized) {\n    bool some_mutation_enabled = false;\n    const char* dredd_environment_variable = std::getenv(\"DREDD_ENABLED_MUTATION\");\n    if (dredd_environment_variable != nullptr) {\n      std::string contents(dredd_environment_variable);\n      while (true) {\n        size_t pos = contents.find(\",\");\n        std::string token = (pos == std::string::npos ? contents : contents.substr(0, pos));\n        if (!token.empty()) {\n          int value = std::stoi(token);\n          int local_value = value - 0;\n          if (local_value >= 0 && local_value < 7) {\n            enabled_bitset[local_value / 64] |= (static_cast<uint64_t>(1) << (local_value % 64));\n            some_mutation_enabled = true;\n          }\n        }\n        if (pos == std::string::npos) {\n          break;\n        }\n        contents.erase(0, pos + 1);\n      }\n    }\n    initialized = true;\n    __dredd_some_mutation_enabled = some_mutation_enabled;\n  }\n  return (enabled_bitset[local_mutation_id / 64] & (static_cast<uint64_t>(1) << (local_mutation_id % 64))) != 0;\n}\n\nstatic int __dredd_replace_expr_int(int arg, int local_mutation_id) {\n  if (!__dredd_some_mutation_enabled) return arg;\n  if (__dredd_enabled_mutation(local_mutation_id + 0)) return !(arg);\n  if (__dredd_enabled_mutation(local_mutation_id + 1)) return ~(arg);\n  if (__dredd_enabled_mutation(local_mutation_id + 2)) return -(arg);\n  if (__dredd_enabled_mutation(local_mutation_id + 3)) return 0;\n  if (__dredd_enabled_mutation(local_mutation_id + 4)) return 1;\n  if (__dredd_enabled_mutation(local_mutation_id + 5)) return -1;\n  return arg;\n}\n\n// Hello\n\nint main() {\n  if (!__dredd_enabled_mutation(6)) { return __dredd_replace_expr_int(42, 0); }\n}\n" }

#guard comment_at_start_of_file_cc.ok

/-- test/single_file/const_expr_function.cc -/
def const_expr_function_cc : Case :=
  let src : Text := t!"constexpr int Max(int a, int b) { return a > b ? a : b; }\n\nint main() {\n  Max(5,4);\n}\n"
  { name := "const_expr_function.cc", lang := cpp, src := src, ast :=
    .decl ⟨.tu, none⟩ [
     .decl ⟨.func true none, (some ⟨0, 57⟩)⟩ [
      .decl ⟨.parm, (some ⟨18, 23⟩)⟩ [],
      .decl ⟨.parm, (some ⟨25, 30⟩)⟩ [],
      st src .compound .plain (some ⟨32, 57⟩) [
       st src .other .plain (some ⟨34, 54⟩) [
        ex src (.cast true false) (some .int) .plain 41 (some ⟨41, 54⟩) id [
         ex src .other (some .int) .operand 41 (some ⟨41, 54⟩) (fun f => { f with lvalue := true }) [
          ex src (.binary .gt) (some .bool) .plain 41 (some ⟨41, 46⟩) (fun f => { f with opOff := some 43 }) [
           ex src (.cast true false) (some .int) .lhs 41 (some ⟨41, 42⟩) id [
            ex src .other (some .int) .operand 41 (some ⟨41, 42⟩) (fun f => { f with lvalue := true }) []],
           ex src (.cast true false) (some .int) .rhs 45 (some ⟨45, 46⟩) id [
            ex src .other (some .int) .operand 45 (some ⟨45, 46⟩) (fun f => { f with lvalue := true }) []]],
          ex src .other (some .int) .plain 49 (some ⟨49, 50⟩) (fun f => { f with lvalue := true }) [],
          ex src .other (some .int) .plain 53 (some ⟨53, 54⟩) (fun f => { f with lvalue := true }) []]]]]],
     .decl ⟨.func false none, (some ⟨59, 85⟩)⟩ [
      st src .compound .plain (some ⟨70, 85⟩) [
       ex src (.call none false false) (some .int) .plain 74 (some ⟨74, 82⟩) (fun f => { f with sideEffects := true, intVal := some 5, boolVal := some true, cxx11Const := true }) [
        ex src (.cast true false) none .plain 74 (some ⟨74, 77⟩) (fun f => { f with anyPointer := true, pointer := true }) [
         ex src .other none .operand 74 (some ⟨74, 77⟩) (fun f => { f with lvalue := true }) []],
        ex src .other (some .int) .callArg 78 (some ⟨78, 79⟩) (fun f => { f with intVal := some 5, boolVal := some true, cxx11Const := true }) [],
        ex src .other (some .int) .callArg 80 (some ⟨80, 81⟩) (fun f => { f with intVal := some 4, boolVal := some true, cxx11Const := true }) []]]]]
    expected := "// DREDD PRELUDE START\n// If this has been inserted at an inappropriate place in a source file,\n// declare a placeholder function with the following signature to\n// mandate where the prelude should be placed:\n//\n// void __dredd_prelude_start();\n//\n#include <atomic>\n#include <cinttypes>\n#include <cstddef>\n#include <fstream>\n#include <functional>\n#include <sstream>\n#include <string>\n\n\n#ifdef _MSC_VER\n#define thread_local __declspec(thread)\n#elif __APPLE__\n#define thread_local __thread\n#endif\n\nstatic thread_local bool __dredd_some_mutation_enabled = true;\nstatic bool __dredd_enabled_mutation(int local_mutation_id) {\n  static thread_local bool initialized = false;\n  static thread_local uint64_t enabled_bitset[1];\n  if (!initialized) {\n    bool some_mutation_enabled = false;\n    const char* dredd_environment_variable = std::getenv(\"DREDD_ENABLED_MUTATION\");\n    if (dredd_environment_variable != nullptr) {\n      std::string contents(dredd_environment_variable);\n      while (true) {\n        size_t pos = contents.find(\",\");\n        std::string token = (pos == std::string::npos ? contents : contents.substr(0, pos));\n        if (!token.empty()) {\n          int value = std::stoi(token);\n          int local_value = value - 0;\n          if (local_value >= 0 && local_value < 11) {\n            enabled_bitset[local_value / 64] |= (static_cast<uint64_t>(1) << (local_value % 64));\n            some_mutation_enabled = true;\n          }\n        }\n        if (pos == std::string::npos) {\n          break;\n        }\n        contents.erase(0, pos + 1);\n      }\n    }\n    initialized = true;\n    __dredd_some_mutation_enabled = some_mutation_enabled;\n  }\n  return (enabled_bitset[local_mutation_id / 64] & (static_cast<uint64_t>(1) << (local_mutation_id % 64))) != 0;\n}\n\nstatic int __dredd_replace_expr_int_constant(int arg, int local_mutation_id) {\n  if (!__dredd_some_mutation_enabled) return arg;\n  if (__dredd_enabled_mutation(local_mutation_id + 0)) return ~(arg);\n  if (__dredd_enabled_mutation(local_mutation_id + 1)) return -(arg);\n  if (__dredd_enabled_mutation(local_mutation_id + 2)) return 0;\n  if (__dredd_enabled_mutation(local_mutation_id + 3)) return 1;\n  if (__dredd_enabled_mutation(local_mutation_id + 4)) return -1;\n  return arg;\n}\n\nconstexpr int Max(int a, int b) { return a > b ? a : b; }\n\nint main() {\n  if (!__dredd_enabled_mutation(10)) { Max(__dredd_replace_expr_int_constant(5, 0),__dredd_replace_expr_int_constant(4, 5)); }\n}\n"
    noopt := "// DREDD PRELUDE START\n// If this has been inserted at an inappropriate place in a source file,\n// declare a placeholder function with the following signature to\n// mandate where the prelude should be placed:\n//\n// void __dredd_prelude_start();\n//\n#include <atomic>\n#include <cinttypes>\n#include <cstddef>\n#include <fstream>\n#include <functional>\n#include <sstream>\n#include <string>\n\n\n#ifdef _MSC_VER\n#define thread_local __declspec(thread)\n#elif __APPLE__\n#define thread_local __thread\n#endif\n\nstatic thread_local bool __dredd_some_mutation_enabled = true;\nstatic bool __dredd_enabled_mutation(int local_mutation_id) {\n  static thread_local bool initialized = false;\n  static thread_local uint64_t enabled_bitset[1];\n  if (!initialized) {\n    bool some_mutation_enabled = false;\n    const char* dredd_environment_variable = std::getenv(\"DREDD_ENABLED_MUTATION\");\n    if (dredd_environment_variable != nullptr) {\n      std::string contents(dredd_environment_variable);\n      while (true) {\n        size_t pos = contents.find(\",\");\n        std::string token = (pos == std::string::npos ? contents : contents.substr(0, pos));\n        if (!token.empty()) {\n          int value = std::stoi(token);\n          int local_value = value - 0;\n          if (local_value >= 0 && local_value < 19) {\n            enabled_bitset[local_value / 64] |= (static_cast<uint64_t>(1) << (local_value % 64));\n            some_mutation_enabled = true;\n          }\n        }\n        if (pos == std::string::npos) {\n          break;\n        }\n        contents.erase(0, pos + 1);\n      }\n    }\n    initialized = true;\n    __dredd_some_mutation_enabled = some_mutation_enabled;\n  }\n  return (enabled_bitset[local_mutation_id / 64] & (static_cast<uint64_t>(1) << (local_mutation_id % 64))) != 0;\n}\n\nstatic int __dredd_replace_expr_int(std::function<int()> arg, int local_mutation_id) {\n  if (!__dredd_some_mutation_enabled) return arg();\n  if (__dredd_enabled_mutation(local_mutation_id + 0)) return !(arg());\n  if (__dredd_enabled_mutation(local_mutation_id + 1)) return ~(arg());\n  if (__dredd_enabled_mutation(local_mutation_id + 2)) return -(arg());\n  if (__dredd_enabled_mutation(local_mutation_id + 3)) return 0;\n  if (__dredd_enabled_mutation(local_mutation_id + 4)) return 1;\n  if (__dredd_enabled_mutation(local_mutation_id + 5)) return -1;\n  return arg();\n}\n\nstatic int __dredd_replace_expr_int(int arg, int local_mutation_id) {\n  if (!__dredd_some_mutation_enabled) return arg;\n  if (__dredd_enabled_mutation(local_mutation_id + 0)) return !(arg);\n  if (__dredd_enabled_mutation(local_mutation_id + 1)) return ~(arg);\n  if (__dredd_enabled_mutation(local_mutation_id + 2)) return -(arg);\n  if (__dredd_enabled_mutation(local_mutation_id + 3)) return 0;\n  if (__dredd_enabled_mutation(local_mutation_id + 4)) return 1;\n  if (__dredd_enabled_mutation(local_mutation_id + 5)) return -1;\n  return arg;\n}\n\nconstexpr int Max(int a, int b) { return a > b ? a : b; }\n\nint main() {\n  if (!__dredd_enabled_mutation(18)) { __dredd_replace_expr_int([&]() -> int { return Max(__dredd_replace_expr_int(5, 0),__dredd_replace_expr_int(4, 6)); }, 12); }\n}\n" }

#guard const_expr_function_cc.ok

end Dredd.Tests
