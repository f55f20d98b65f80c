/-
Tests, not proofs: files of /repo/test/single_file, part 5.  Each case has the source, the
syntax tree of the source and the output that the repository expects for it, with and
without optimisations.  The trees were made by a program that parses the sources.
-/
import Verif.Tests.Case

namespace Dredd.Tests

/-- test/single_file/misc001.cc -/
def misc001_cc : Case :=
  let src : Text := t!"template <typename> class a {\n  void operator+() { a b(this); }\n};\n"
  { name := "misc001.cc", lang := cpp, src := src, ast :=
    .decl ⟨.tu, none⟩ [
     .decl ⟨.other, (some ⟨0, 65⟩)⟩ [
      .decl ⟨.other, (some ⟨20, 65⟩)⟩ [
       .decl ⟨.func false none, (some ⟨32, 63⟩)⟩ [
        st src .compound .plain (some ⟨49, 63⟩) [
         st src .declStmt .plain (some ⟨51, 61⟩) [
          .decl ⟨.var ⟨53, false, [], [], false, false, false⟩, (some ⟨51, 60⟩)⟩ [
           ex src .other none .plain 54 (some ⟨54, 60⟩) id [
            ex src .other none .plain 55 (some ⟨55, 59⟩) (fun f => { f with anyPointer := true, pointer := true }) []]]]]]]]]
    expected := "template <typename> class a {\n  void operator+() { a b(this); }\n};\n"
    noopt := "template <typename> class a {\n  void operator+() { a b(this); }\n};\n" }

#guard misc001_cc.ok

/-- test/single_file/misc003.cc -/
def misc003_cc : Case :=
  let src : Text := t!"void f(){\n  try {\n  } catch (...) {\n  }\n}\n"
  { name := "misc003.cc", lang := cpp, src := src, ast :=
    .decl ⟨.tu, none⟩ [
     .decl ⟨.func false none, (some ⟨0, 41⟩)⟩ [
      st src .compound .plain (some ⟨8, 41⟩) [
       st src .other .plain (some ⟨12, 39⟩) [
        st src .compound .plain (some ⟨16, 21⟩) [],
        st src .other .plain (some ⟨22, 39⟩) [
         st src .compound .plain (some ⟨34, 39⟩) []]]]]]
    expected := "// DREDD PRELUDE START\n// If this has been inserted at an inappropriate place in a source file,\n// declare a placeholder function with the following signature to\n// mandate where the prelude should be placed:\n//\n// void __dredd_prelude_start();\n//\n#include <atomic>\n#include <cinttypes>\n#include <cstddef>\n#include <fstream>\n#include <functional>\n#include <sstream>\n#include <string>\n\n\n#ifdef _MSC_VER\n#define thread_local __declspec(thread)\n#elif __APPLE__\n#define thread_local __thread\n#endif\n\nstatic thread_local bool __dredd_some_mutation_enabled = true;\nstatic bool __dredd_enabled_mutation(int local_mutation_id) {\n  static thread_local bool initialized = false;\n  static thread_local uint64_t enabled_bitset[1];\n  if (!initialized) {\n    bool some_mutation_enabled = false;\n    const char* dredd_environment_variable = std::getenv(\"DREDD_ENABLED_MUTATION\");\n    if (dredd_environment_variable != nullptr) {\n      std::string contents(dredd_environment_variable);\n      while (true) {\n        size_t pos = contents.find(\",\");\n        std::string token = (pos == std::string::npos ? contents : contents.substr(0, pos));\n        if (!token.empty()) {\n          int value = std::stoi(token);\n          int local_value = value - 0;\n          if (local_value >= 0 && local_value < 1) {\n            enabled_bitset[local_value / 64] |= (static_cast<uint64_t>(1) << (local_value % 64));\n            some_mutation_enabled = true;\n          }\n        }\n        if (pos == std::string::npos) {\n          break;\n        }\n        contents.erase(0, pos + 1);\n      }\n    }\n    initialized = true;\n    __dredd_some_mutation_enabled = some_mutation_enabled;\n  }\n  return (enabled_bitset[local_mutation_id / 64] & (static_cast<uint64_t>(1) << (local_mutation_id % 64))) != 0;\n}\n\nvoid f(){\n  if (!__dredd_enabled_mutation(0)) { try {\n  } catch (...) {\n  } }\n}\n"
    noopt := "// DREDD PRELUDE START\n// If this has been inserted at an inappropriate place in a source file,\n// declare a placeholder function with the following signature to\n// mandate where the prelude should be placed:\n//\n// void __dredd_prelude_start();\n//\n#include <atomic>\n#include <cinttypes>\n#include <cstddef>\n#include <fstream>\n#include <functional>\n#include <sstream>\n#include <string>\n\n\n#ifdef _MSC_VER\n#define thread_local __declspec(thread)\n#elif __APPLE__\n#define thread_local __thread\n#endif\n\nstatic thread_local bool __dredd_some_mutation_enabled = true;\nstatic bool __dredd_enabled_mutation(int local_mutation_id) {\n  static thread_local bool initialized = false;\n  static thread_local uint64_t enabled_bitset[1];\n  if (!initialized) {\n    bool some_mutation_enabled = false;\n    const char* dredd_environment_variable = std::getenv(\"DREDD_ENABLED_MUTATION\");\n    if (dredd_environment_variable != nullptr) {\n      std::string contents(dredd_environment_variable);\n      while (true) {\n        size_t pos = contents.find(\",\");\n        std::string token = (pos == std::string::npos ? contents : contents.substr(0, pos));\n        if (!token.empty()) {\n          int value = std::stoi(token);\n          int local_value = value - 0;\n          if (local_value >= 0 && local_value < 1) {\n            enabled_bitset[local_value / 64] |= (static_cast<uint64_t>(1) << (local_value % 64));\n            some_mutation_enabled = true;\n          }\n        }\n        if (pos == std::string::npos) {\n          break;\n        }\n        contents.erase(0, pos + 1);\n      }\n    }\n    initialized = true;\n    __dredd_some_mutation_enabled = some_mutation_enabled;\n  }\n  return (enabled_bitset[local_mutation_id / 64] & (static_cast<uint64_t>(1) << (local_mutation_id % 64))) != 0;\n}\n\nvoid f(){\n  if (!__dredd_enabled_mutation(0)) { try {\n  } catch (...) {\n  } }\n}\n" }

#guard misc003_cc.ok

/-- test/single_file/new_expr_array_size.cc -/
def new_expr_array_size_cc : Case :=
  let src : Text := t!"class foo {\npublic:\n  foo(int x) {}\n};\n\nint main() { \n  new foo[2]{4, 5}; \n}\n"
  { name := "new_expr_array_size.cc", lang := cpp, src := src, ast :=
    .decl ⟨.tu, none⟩ [
     .decl ⟨.other, (some ⟨0, 37⟩)⟩ [],
     .decl ⟨.func false none, (some ⟨40, 76⟩)⟩ [
      st src .compound .plain (some ⟨51, 76⟩) [
       ex src .new none .plain 56 (some ⟨56, 72⟩) (fun f => { f with sideEffects := true, anyPointer := true, pointer := true }) [
        ex src .other (some .int) .newSize 64 (some ⟨64, 65⟩) (fun f => { f with intVal := some 2, boolVal := some true, cxx11Const := true }) [],
        ex src .initList none .plain 66 (some ⟨66, 72⟩) (fun f => { f with sideEffects := true }) [
         ex src (.cast true false) none .plain 67 (some ⟨67, 68⟩) (fun f => { f with sideEffects := true }) [
          ex src .construct none .operand 67 (some ⟨67, 68⟩) (fun f => { f with sideEffects := true }) [
           ex src .other (some .int) .callArg 67 (some ⟨67, 68⟩) (fun f => { f with intVal := some 4, boolVal := some true, cxx11Const := true }) []]],
         ex src (.cast true false) none .plain 70 (some ⟨70, 71⟩) (fun f => { f with sideEffects := true }) [
          ex src .construct none .operand 70 (some ⟨70, 71⟩) (fun f => { f with sideEffects := true }) [
           ex src .other (some .int) .callArg 70 (some ⟨70, 71⟩) (fun f => { f with intVal := some 5, boolVal := some true, cxx11Const := true }) []]]]]]]]
    expected := "// DREDD PRELUDE START\n// If this has been inserted at an inappropriate place in a source file,\n// declare a placeholder function with the following signature to\n// mandate where the prelude should be placed:\n//\n// void __dredd_prelude_start();\n//\n#include <atomic>\n#include <cinttypes>\n#include <cstddef>\n#include <fstream>\n#include <functional>\n#include <sstream>\n#include <string>\n\n\n#ifdef _MSC_VER\n#define thread_local __declspec(thread)\n#elif __APPLE__\n#define thread_local __thread\n#endif\n\nstatic thread_local bool __dredd_some_mutation_enabled = true;\nstatic bool __dredd_enabled_mutation(int local_mutation_id) {\n  static thread_local bool initialized = false;\n  static thread_local uint64_t enabled_bitset[1];\n  if (!initialized) {\n    bool some_mutation_enabled = false;\n    const char* dredd_environment_variable = std::getenv(\"DREDD_ENABLED_MUTATION\");\n    if (dredd_environment_variable != nullptr) {\n      std::string contents(dredd_environment_variable);\n      while (true) {\n        size_t pos = contents.find(\",\");\n        std::string token = (pos == std::string::npos ? contents : contents.substr(0, pos));\n        if (!token.empty()) {\n          int value = std::stoi(token);\n          int local_value = value - 0;\n          if (local_value >= 0 && local_value < 11) {\n            enabled_bitset[local_value / 64] |= (static_cast<uint64_t>(1) << (local_value % 64));\n            some_mutation_enabled = true;\n          }\n        }\n        if (pos == std::string::npos) {\n          break;\n        }\n        contents.erase(0, pos + 1);\n      }\n    }\n    initialized = true;\n    __dredd_some_mutation_enabled = some_mutation_enabled;\n  }\n  return (enabled_bitset[local_mutation_id / 64] & (static_cast<uint64_t>(1) << (local_mutation_id % 64))) != 0;\n}\n\nstatic int __dredd_replace_expr_int_constant(int arg, int local_mutation_id) {\n  if (!__dredd_some_mutation_enabled) return arg;\n  if (__dredd_enabled_mutation(local_mutation_id + 0)) return ~(arg);\n  if (__dredd_enabled_mutation(local_mutation_id + 1)) return -(arg);\n  if (__dredd_enabled_mutation(local_mutation_id + 2)) return 0;\n  if (__dredd_enabled_mutation(local_mutation_id + 3)) return 1;\n  if (__dredd_enabled_mutation(local_mutation_id + 4)) return -1;\n  return arg;\n}\n\nclass foo {\npublic:\n  foo(int x) {}\n};\n\nint main() { \n  if (!__dredd_enabled_mutation(10)) { new foo[2]{__dredd_replace_expr_int_constant(4, 0), __dredd_replace_expr_int_constant(5, 5)}; } \n}\n"
    noopt := "// DREDD PRELUDE START\n// If this has been inserted at an inappropriate place in a source file,\n// declare a placeholder function with the following signature to\n// mandate where the prelude should be placed:\n//\n// void __dredd_prelude_start();\n//\n#include <atomic>\n#include <cinttypes>\n#include <cstddef>\n#include <fstream>\n#include <functional>\n#include <sstream>\n#include <string>\n\n\n#ifdef _MSC_VER\n#define thread_local __declspec(thread)\n#elif __APPLE__\n#define thread_local __thread\n#endif\n\nstatic thread_local bool __dredd_some_mutation_enabled = true;\nstatic bool __dredd_enabled_mutation(int local_mutation_id) {\n  static thread_local bool initialized = false;\n  static thread_local uint64_t enabled_bitset[1];\n  if (!initialized) {\n    bool some_mutation_enabled = false;\n    const char* dredd_environment_variable = std::getenv(\"DREDD_ENABLED_MUTATION\");\n    if (dredd_environment_variable != nullptr) {\n      std::string contents(dredd_environment_variable);\n      while (true) {\n        size_t pos = contents.find(\",\");\n        std::string token = (pos == std::string::npos ? contents : contents.substr(0, pos));\n        if (!token.empty()) {\n          int value = std::stoi(token);\n          int local_value = value - 0;\n          if (local_value >= 0 && local_value < 13) {\n            enabled_bitset[local_value / 64] |= (static_cast<uint64_t>(1) << (local_value % 64));\n            some_mutation_enabled = true;\n          }\n        }\n        if (pos == std::string::npos) {\n          break;\n        }\n        contents.erase(0, pos + 1);\n      }\n    }\n    initialized = true;\n    __dredd_some_mutation_enabled = some_mutation_enabled;\n  }\n  return (enabled_bitset[local_mutation_id / 64] & (static_cast<uint64_t>(1) << (local_mutation_id % 64))) != 0;\n}\n\nstatic int __dredd_replace_expr_int(int arg, int local_mutation_id) {\n  if (!__dredd_some_mutation_enabled) return arg;\n  if (__dredd_enabled_mutation(local_mutation_id + 0)) return !(arg);\n  if (__dredd_enabled_mutation(local_mutation_id + 1)) return ~(arg);\n  if (__dredd_enabled_mutation(local_mutation_id + 2)) return -(arg);\n  if (__dredd_enabled_mutation(local_mutation_id + 3)) return 0;\n  if (__dredd_enabled_mutation(local_mutation_id + 4)) return 1;\n  if (__dredd_enabled_mutation(local_mutation_id + 5)) return -1;\n  return arg;\n}\n\nclass foo {\npublic:\n  foo(int x) {}\n};\n\nint main() { \n  if (!__dredd_enabled_mutation(12)) { new foo[2]{__dredd_replace_expr_int(4, 0), __dredd_replace_expr_int(5, 6)}; } \n}\n" }

#guard new_expr_array_size_cc.ok

/-- test/single_file/noexcept.cc -/
def noexcept_cc : Case :=
  let src : Text := t!"void foo() noexcept(true);\n"
  { name := "noexcept.cc", lang := cpp, src := src, ast :=
    .decl ⟨.tu, none⟩ [
     .decl ⟨.func false none, (some ⟨0, 25⟩)⟩ [
      .other .other [
       ex src .constant (some .bool) .plain 20 (some ⟨20, 24⟩) (fun f => { f with intVal := some 1, boolVal := some true, cxx11Const := true }) []]]]
    expected := "void foo() noexcept(true);\n"
    noopt := "void foo() noexcept(true);\n" }

#guard noexcept_cc.ok

/-- test/single_file/noexcept2.cc -/
def noexcept2_cc : Case :=
  let src : Text := t!"template <class a> void b() noexcept(noexcept(a()));\n"
  { name := "noexcept2.cc", lang := cpp, src := src, ast :=
    .decl ⟨.tu, none⟩ [
     .decl ⟨.other, (some ⟨0, 51⟩)⟩ [
      .decl ⟨.func false none, (some ⟨19, 51⟩)⟩ [
       .other .other [
        ex src .noexcept (some .bool) .plain 37 (some ⟨37, 50⟩) id []]]]]
    expected := "template <class a> void b() noexcept(noexcept(a()));\n"
    noopt := "template <class a> void b() noexcept(noexcept(a()));\n" }

#guard noexcept2_cc.ok

/-- test/single_file/noreturn.cc -/
def noreturn_cc : Case :=
  let src : Text := t!"#include <cstdlib>\n#include <iostream>\n\n[[noreturn]] static int foo() {\n  std::cout << \"Aborting\\n\";\n  std::abort();\n}\n"
  { name := "noreturn.cc", lang := cpp, src := src, ast :=
    .decl ⟨.tu, none⟩ [
     .decl ⟨.func false none, (some ⟨53, 118⟩)⟩ [
      st src .compound .plain (some ⟨70, 118⟩) [
       ex src (.call none false false) none .plain 74 (some ⟨74, 99⟩) (fun f => { f with lvalue := true, sideEffects := true }) [],
       ex src (.call none false false) none .plain 103 (some ⟨103, 115⟩) (fun f => { f with sideEffects := true }) [
        ex src (.cast true false) none .plain 103 (some ⟨103, 113⟩) (fun f => { f with anyPointer := true, pointer := true }) [
         ex src .other none .operand 103 (some ⟨103, 113⟩) (fun f => { f with lvalue := true }) []]]]]]
    expected := "// DREDD PRELUDE START\n// If this has been inserted at an inappropriate place in a source file,\n// declare a placeholder function with the following signature to\n// mandate where the prelude should be placed:\n//\n// void __dredd_prelude_start();\n//\n#include <atomic>\n#include <cinttypes>\n#include <cstddef>\n#include <fstream>\n#include <functional>\n#include <sstream>\n#include <string>\n\n\n#ifdef _MSC_VER\n#define thread_local __declspec(thread)\n#elif __APPLE__\n#define thread_local __thread\n#endif\n\nstatic thread_local bool __dredd_some_mutation_enabled = true;\nstatic bool __dredd_enabled_mutation(int local_mutation_id) {\n  static thread_local bool initialized = false;\n  static thread_local uint64_t enabled_bitset[1];\n  if (!initialized) {\n    bool some_mutation_enabled = false;\n    const char* dredd_environment_variable = std::getenv(\"DREDD_ENABLED_MUTATION\");\n    if (dredd_environment_variable != nullptr) {\n      std::string contents(dredd_environment_variable);\n      while (true) {\n        size_t pos = contents.find(\",\");\n        std::string token = (pos == std::string::npos ? contents : contents.substr(0, pos));\n        if (!token.empty()) {\n          int value = std::stoi(token);\n          int local_value = value - 0;\n          if (local_value >= 0 && local_value < 2) {\n            enabled_bitset[local_value / 64] |= (static_cast<uint64_t>(1) << (local_value % 64));\n            some_mutation_enabled = true;\n          }\n        }\n        if (pos == std::string::npos) {\n          break;\n        }\n        contents.erase(0, pos + 1);\n      }\n    }\n    initialized = true;\n    __dredd_some_mutation_enabled = some_mutation_enabled;\n  }\n  return (enabled_bitset[local_mutation_id / 64] & (static_cast<uint64_t>(1) << (local_mutation_id % 64))) != 0;\n}\n\n#include <cstdlib>\n#include <iostream>\n\n[[noreturn]] static int foo() {\n  if (!__dredd_enabled_mutation(0)) { std::cout << \"Aborting\\n\"; }\n  if (!__dredd_enabled_mutation(1)) { std::abort(); }\n}\n"
    noopt := "// DREDD PRELUDE START\n// If this has been inserted at an inappropriate place in a source file,\n// declare a placeholder function with the following signature to\n// mandate where the prelude should be placed:\n//\n// void __dredd_prelude_start();\n//\n#include <atomic>\n#include <cinttypes>\n#include <cstddef>\n#include <fstream>\n#include <functional>\n#include <sstream>\n#include <string>\n\n\n#ifdef _MSC_VER\n#define thread_local __declspec(thread)\n#elif __APPLE__\n#define thread_local __thread\n#endif\n\nstatic thread_local bool __dredd_some_mutation_enabled = true;\nstatic bool __dredd_enabled_mutation(int local_mutation_id) {\n  static thread_local bool initialized = false;\n  static thread_local uint64_t enabled_bitset[1];\n  if (!initialized) {\n    bool some_mutation_enabled = false;\n    const char* dredd_environment_variable = std::getenv(\"DREDD_ENABLED_MUTATION\");\n    if (dredd_environment_variable != nullptr) {\n      std::string contents(dredd_environment_variable);\n      while (true) {\n        size_t pos = contents.find(\",\");\n        std::string token = (pos == std::string::npos ? contents : contents.substr(0, pos));\n        if (!token.empty()) {\n          int value = std::stoi(token);\n          int local_value = value - 0;\n          if (local_value >= 0 && local_value < 2) {\n            enabled_bitset[local_value / 64] |= (static_cast<uint64_t>(1) << (local_value % 64));\n            some_mutation_enabled = true;\n          }\n        }\n        if (pos == std::string::npos) {\n          break;\n        }\n        contents.erase(0, pos + 1);\n      }\n    }\n    initialized = true;\n    __dredd_some_mutation_enabled = some_mutation_enabled;\n  }\n  return (enabled_bitset[local_mutation_id / 64] & (static_cast<uint64_t>(1) << (local_mutation_id % 64))) != 0;\n}\n\n#include <cstdlib>\n#include <iostream>\n\n[[noreturn]] static int foo() {\n  if (!__dredd_enabled_mutation(0)) { std::cout << \"Aborting\\n\"; }\n  if (!__dredd_enabled_mutation(1)) { std::abort(); }\n}\n" }

#guard noreturn_cc.ok

/-- test/single_file/printing.cc -/
def printing_cc : Case :=
  let src : Text := t!"#include <iostream>\n\nint main() {\n  std::cout << \"A\\n\";\n  std::cout << \"B\\n\";\n  std::cout << \"C\\n\";\n  std::cout << \"D\\n\";\n  std::cout << \"E\\n\";\n  std::cout << \"F\\n\";\n  std::cout << \"G\\n\";\n}\n"
  { name := "printing.cc", lang := cpp, src := src, ast :=
    .decl ⟨.tu, none⟩ [
     .decl ⟨.func false none, (some ⟨21, 189⟩)⟩ [
      st src .compound .plain (some ⟨32, 189⟩) [
       ex src (.call none false false) none .plain 36 (some ⟨36, 54⟩) (fun f => { f with lvalue := true, sideEffects := true }) [],
       ex src (.call none false false) none .plain 58 (some ⟨58, 76⟩) (fun f => { f with lvalue := true, sideEffects := true }) [],
       ex src (.call none false false) none .plain 80 (some ⟨80, 98⟩) (fun f => { f with lvalue := true, sideEffects := true }) [],
       ex src (.call none false false) none .plain 102 (some ⟨102, 120⟩) (fun f => { f with lvalue := true, sideEffects := true }) [],
       ex src (.call none false false) none .plain 124 (some ⟨124, 142⟩) (fun f => { f with lvalue := true, sideEffects := true }) [],
       ex src (.call none false false) none .plain 146 (some ⟨146, 164⟩) (fun f => { f with lvalue := true, sideEffects := true }) [],
       ex src (.call none false false) none .plain 168 (some ⟨168, 186⟩) (fun f => { f with lvalue := true, sideEffects := true }) []]]]
    expected := "// DREDD PRELUDE START\n// If this has been inserted at an inappropriate place in a source file,\n// declare a placeholder function with the following signature to\n// mandate where the prelude should be placed:\n//\n// void __dredd_prelude_start();\n//\n#include <atomic>\n#include <cinttypes>\n#include <cstddef>\n#include <fstream>\n#include <functional>\n#include <sstream>\n#include <string>\n\n\n#ifdef _MSC_VER\n#define thread_local __declspec(thread)\n#elif __APPLE__\n#define thread_local __thread\n#endif\n\nstatic thread_local bool __dredd_some_mutation_enabled = true;\nstatic bool __dredd_enabled_mutation(int local_mutation_id) {\n  static thread_local bool initialized = false;\n  static thread_local uint64_t enabled_bitset[1];\n  if (!initialized) {\n    bool some_mutation_enabled = false;\n    const char* dredd_environment_variable = std::getenv(\"DREDD_ENABLED_MUTATION\");\n    if (dredd_environment_variable != nullptr) {\n      std::string contents(dredd_environment_variable);\n      while (true) {\n        size_t pos = contents.find(\",\");\n        std::string token = (pos == std::string::npos ? contents : contents.substr(0, pos));\n        if (!token.empty()) {\n          int value = std::stoi(token);\n          int local_value = value - 0;\n          if (local_value >= 0 && local_value < 7) {\n            enabled_bitset[local_value / 64] |= (static_cast<uint64_t>(1) << (local_value % 64));\n            some_mutation_enabled = true;\n          }\n        }\n        if (pos == std::string::npos) {\n          break;\n        }\n        contents.erase(0, pos + 1);\n      }\n    }\n    initialized = true;\n    __dredd_some_mutation_enabled = some_mutation_enabled;\n  }\n  return (enabled_bitset[local_mutation_id / 64] & (static_cast<uint64_t>(1) << (local_mutation_id % 64))) != 0;\n}\n\n#include <iostream>\n\nint main() {\n  if (!__dredd_enabled_mutation(0)) { std::cout << \"A\\n\"; }\n  if (!__dredd_enabled_mutation(1)) { std::cout << \"B\\n\"; }\n  if (!__dredd_enabled_mutation(2)) { std::cout << \"C\\n\"; }\n  if (!__dredd_enabled_mutation(3)) { std::cout << \"D\\n\"; }\n  if (!__dredd_enabled_mutation(4)) { std::cout << \"E\\n\"; }\n  if (!__dredd_enabled_mutation(5)) { std::cout << \"F\\n\"; }\n  if (!__dredd_enabled_mutation(6)) { std::cout << \"G\\n\"; }\n}\n"
    noopt := "// DREDD PRELUDE START\n// If this has been inserted at an inappropriate place in a source file,\n// declare a placeholder function with the following signature to\n// mandate where the prelude should be placed:\n//\n// void __dredd_prelude_start();\n//\n#include <atomic>\n#include <cinttypes>\n#include <cstddef>\n#include <fstream>\n#include <functional>\n#include <sstream>\n#include <string>\n\n\n#ifdef _MSC_VER\n#define thread_local __declspec(thread)\n#elif __APPLE__\n#define thread_local __thread\n#endif\n\nstatic thread_local bool __dredd_some_mutation_enabled = true;\nstatic bool __dredd_enabled_mutation(int local_mutation_id) {\n  static thread_local bool initialized = false;\n  static thread_local uint64_t enabled_bitset[1];\n  if (!initialized) {\n    bool some_mutation_enabled = false;\n    const char* dredd_environment_variable = std::getenv(\"DREDD_ENABLED_MUTATION\");\n    if (dredd_environment_variable != nullptr) {\n      std::string contents(dredd_environment_variable);\n      while (true) {\n        size_t pos = contents.find(\",\");\n        std::string token = (pos == std::string::npos ? contents : contents.substr(0, pos));\n        if (!token.empty()) {\n          int value = std::stoi(token);\n          int local_value = value - 0;\n          if (local_value >= 0 && local_value < 7) {\n            enabled_bitset[local_value / 64] |= (static_cast<uint64_t>(1) << (local_value % 64));\n            some_mutation_enabled = true;\n          }\n        }\n        if (pos == std::string::npos) {\n          break;\n        }\n        contents.erase(0, pos + 1);\n      }\n    }\n    initialized = true;\n    __dredd_some_mutation_enabled = some_mutation_enabled;\n  }\n  return (enabled_bitset[local_mutation_id / 64] & (static_cast<uint64_t>(1) << (local_mutation_id % 64))) != 0;\n}\n\n#include <iostream>\n\nint main() {\n  if (!__dredd_enabled_mutation(0)) { std::cout << \"A\\n\"; }\n  if (!__dredd_enabled_mutation(1)) { std::cout << \"B\\n\"; }\n  if (!__dredd_enabled_mutation(2)) { std::cout << \"C\\n\"; }\n  if (!__dredd_enabled_mutation(3)) { std::cout << \"D\\n\"; }\n  if (!__dredd_enabled_mutation(4)) { std::cout << \"E\\n\"; }\n  if (!__dredd_enabled_mutation(5)) { std::cout << \"F\\n\"; }\n  if (!__dredd_enabled_mutation(6)) { std::cout << \"G\\n\"; }\n}\n" }

#guard printing_cc.ok

/-- test/single_file/sizeof_template.cc -/
def sizeof_template_cc : Case :=
  let src : Text := t!"template <typename a> void b() { a(sizeof(a)); }\n"
  { name := "sizeof_template.cc", lang := cpp, src := src, ast :=
    .decl ⟨.tu, none⟩ [
     .decl ⟨.other, (some ⟨0, 48⟩)⟩ [
      .decl ⟨.func false none, (some ⟨22, 48⟩)⟩ [
       st src .compound .plain (some ⟨31, 48⟩) [
        ex src .other none .plain 33 (some ⟨33, 45⟩) (fun f => { f with sideEffects := true }) [
         ex src (.sizeOrAlign true) (some .ulong) .plain 35 (some ⟨35, 44⟩) id []]]]]]
    expected := "// DREDD PRELUDE START\n// If this has been inserted at an inappropriate place in a source file,\n// declare a placeholder function with the following signature to\n// mandate where the prelude should be placed:\n//\n// void __dredd_prelude_start();\n//\n#include <atomic>\n#include <cinttypes>\n#include <cstddef>\n#include <fstream>\n#include <functional>\n#include <sstream>\n#include <string>\n\n\n#ifdef _MSC_VER\n#define thread_local __declspec(thread)\n#elif __APPLE__\n#define thread_local __thread\n#endif\n\nstatic thread_local bool __dredd_some_mutation_enabled = true;\nstatic bool __dredd_enabled_mutation(int local_mutation_id) {\n  static thread_local bool initialized = false;\n  static thread_local uint64_t enabled_bitset[1];\n  if (!initialized) {\n    bool some_mutation_enabled = false;\n    const char* dredd_environment_variable = std::getenv(\"DREDD_ENABLED_MUTATION\");\n    if (dredd_environment_variable != nullptr) {\n      std::string contents(dredd_environment_variable);\n      while (true) {\n        size_t pos = contents.find(\",\");\n        std::string token = (pos == std::string::npos ? contents : contents.substr(0, pos));\n        if (!token.empty()) {\n          int value = std::stoi(token);\n          int local_value = value - 0;\n          if (local_value >= 0 && local_value < 5) {\n            enabled_bitset[local_value / 64] |= (static_cast<uint64_t>(1) << (local_value % 64));\n            some_mutation_enabled = true;\n          }\n        }\n        if (pos == std::string::npos) {\n          break;\n        }\n        contents.erase(0, pos + 1);\n      }\n    }\n    initialized = true;\n    __dredd_some_mutation_enabled = some_mutation_enabled;\n  }\n  return (enabled_bitset[local_mutation_id / 64] & (static_cast<uint64_t>(1) << (local_mutation_id % 64))) != 0;\n}\n\nstatic unsigned long __dredd_replace_expr_unsigned_long(unsigned long arg, int local_mutation_id) {\n  if (!__dredd_some_mutation_enabled) return arg;\n  if (__dredd_enabled_mutation(local_mutation_id + 0)) return !(arg);\n  if (__dredd_enabled_mutation(local_mutation_id + 1)) return ~(arg);\n  if (__dredd_enabled_mutation(local_mutation_id + 2)) return 0;\n  if (__dredd_enabled_mutation(local_mutation_id + 3)) return 1;\n  return arg;\n}\n\ntemplate <typename a> void b() { if (!__dredd_enabled_mutation(4)) { a(__dredd_replace_expr_unsigned_long(sizeof(a), 0)); } }\n"
    noopt := "// DREDD PRELUDE START\n// If this has been inserted at an inappropriate place in a source file,\n// declare a placeholder function with the following signature to\n// mandate where the prelude should be placed:\n//\n// void __dredd_prelude_start();\n//\n#include <atomic>\n#include <cinttypes>\n#include <cstddef>\n#include <fstream>\n#include <functional>\n#include <sstream>\n#include <string>\n\n\n#ifdef _MSC_VER\n#define thread_local __declspec(thread)\n#elif __APPLE__\n#define thread_local __thread\n#endif\n\nstatic thread_local bool __dredd_some_mutation_enabled = true;\nstatic bool __dredd_enabled_mutation(int local_mutation_id) {\n  static thread_local bool initialized = false;\n  static thread_local uint64_t enabled_bitset[1];\n  if (!initialized) {\n    bool some_mutation_enabled = false;\n    const char* dredd_environment_variable = std::getenv(\"DREDD_ENABLED_MUTATION\");\n    if (dredd_environment_variable != nullptr) {\n      std::string contents(dredd_environment_variable);\n      while (true) {\n        size_t pos = contents.find(\",\");\n        std::string token = (pos == std::string::npos ? contents : contents.substr(0, pos));\n        if (!token.empty()) {\n          int value = std::stoi(token);\n          int local_value = value - 0;\n          if (local_value >= 0 && local_value < 5) {\n            enabled_bitset[local_value / 64] |= (static_cast<uint64_t>(1) << (local_value % 64));\n            some_mutation_enabled = true;\n          }\n        }\n        if (pos == std::string::npos) {\n          break;\n        }\n        contents.erase(0, pos + 1);\n      }\n    }\n    initialized = true;\n    __dredd_some_mutation_enabled = some_mutation_enabled;\n  }\n  return (enabled_bitset[local_mutation_id / 64] & (static_cast<uint64_t>(1) << (local_mutation_id % 64))) != 0;\n}\n\nstatic unsigned long __dredd_replace_expr_unsigned_long(unsigned long arg, int local_mutation_id) {\n  if (!__dredd_some_mutation_enabled) return arg;\n  if (__dredd_enabled_mutation(local_mutation_id + 0)) return !(arg);\n  if (__dredd_enabled_mutation(local_mutation_id + 1)) return ~(arg);\n  if (__dredd_enabled_mutation(local_mutation_id + 2)) return 0;\n  if (__dredd_enabled_mutation(local_mutation_id + 3)) return 1;\n  return arg;\n}\n\ntemplate <typename a> void b() { if (!__dredd_enabled_mutation(4)) { a(__dredd_replace_expr_unsigned_long(sizeof(a), 0)); } }\n" }

#guard sizeof_template_cc.ok

/-- test/single_file/sizeof_template2.cc -/
def sizeof_template2_cc : Case :=
  let src : Text := t!"bool f(int);\n\ntemplate <typename a> struct b {\n  bool c() { return f(sizeof(a)); }\n};\n"
  { name := "sizeof_template2.cc", lang := cpp, src := src, ast :=
    .decl ⟨.tu, none⟩ [
     .decl ⟨.func false none, (some ⟨0, 11⟩)⟩ [
      .decl ⟨.parm, (some ⟨7, 10⟩)⟩ []],
     .decl ⟨.other, (some ⟨14, 84⟩)⟩ [
      .decl ⟨.other, (some ⟨36, 84⟩)⟩ [
       .decl ⟨.func false none, (some ⟨49, 82⟩)⟩ [
        st src .compound .plain (some ⟨58, 82⟩) [
         st src .other .plain (some ⟨60, 79⟩) [
          ex src (.call none false false) (some .bool) .plain 67 (some ⟨67, 79⟩) (fun f => { f with sideEffects := true }) [
           ex src (.cast true false) none .plain 67 (some ⟨67, 68⟩) (fun f => { f with anyPointer := true, pointer := true }) [
            ex src .other none .operand 67 (some ⟨67, 68⟩) (fun f => { f with lvalue := true }) []],
           ex src (.cast true false) (some .int) .callArg 69 (some ⟨69, 78⟩) id [
            ex src (.sizeOrAlign true) (some .ulong) .operand 69 (some ⟨69, 78⟩) id []]]]]]]]]
    expected := "// DREDD PRELUDE START\n// If this has been inserted at an inappropriate place in a source file,\n// declare a placeholder function with the following signature to\n// mandate where the prelude should be placed:\n//\n// void __dredd_prelude_start();\n//\n#include <atomic>\n#include <cinttypes>\n#include <cstddef>\n#include <fstream>\n#include <functional>\n#include <sstream>\n#include <string>\n\n\n#ifdef _MSC_VER\n#define thread_local __declspec(thread)\n#elif __APPLE__\n#define thread_local __thread\n#endif\n\nstatic thread_local bool __dredd_some_mutation_enabled = true;\nstatic bool __dredd_enabled_mutation(int local_mutation_id) {\n  static thread_local bool initialized = false;\n  static thread_local uint64_t enabled_bitset[1];\n  if (!initialized) {\n    bool some_mutation_enabled = false;\n    const char* dredd_environment_variable = std::getenv(\"DREDD_ENABLED_MUTATION\");\n    if (dredd_environment_variable != nullptr) {\n      std::string contents(dredd_environment_variable);\n      while (true) {\n        size_t pos = contents.find(\",\");\n        std::string token = (pos == std::string::npos ? contents : contents.substr(0, pos));\n        if (!token.empty()) {\n          int value = std::stoi(token);\n          int local_value = value - 0;\n          if (local_value >= 0 && local_value < 10) {\n            enabled_bitset[local_value / 64] |= (static_cast<uint64_t>(1) << (local_value % 64));\n            some_mutation_enabled = true;\n          }\n        }\n        if (pos == std::string::npos) {\n          break;\n        }\n        contents.erase(0, pos + 1);\n      }\n    }\n    initialized = true;\n    __dredd_some_mutation_enabled = some_mutation_enabled;\n  }\n  return (enabled_bitset[local_mutation_id / 64] & (static_cast<uint64_t>(1) << (local_mutation_id % 64))) != 0;\n}\n\nstatic int __dredd_replace_expr_int(int arg, int local_mutation_id) {\n  if (!__dredd_some_mutation_enabled) return arg;\n  if (__dredd_enabled_mutation(local_mutation_id + 0)) return !(arg);\n  if (__dredd_enabled_mutation(local_mutation_id + 1)) return ~(arg);\n  if (__dredd_enabled_mutation(local_mutation_id + 2)) return -(arg);\n  if (__dredd_enabled_mutation(local_mutation_id + 3)) return 0;\n  if (__dredd_enabled_mutation(local_mutation_id + 4)) return 1;\n  if (__dredd_enabled_mutation(local_mutation_id + 5)) return -1;\n  return arg;\n}\n\nstatic bool __dredd_replace_expr_bool(std::function<bool()> arg, int local_mutation_id) {\n  if (!__dredd_some_mutation_enabled) return arg();\n  if (__dredd_enabled_mutation(local_mutation_id + 0)) return !(arg());\n  if (__dredd_enabled_mutation(local_mutation_id + 1)) return true;\n  if (__dredd_enabled_mutation(local_mutation_id + 2)) return false;\n  return arg();\n}\n\nbool f(int);\n\ntemplate <typename a> struct b {\n  bool c() { if (!__dredd_enabled_mutation(9)) { return __dredd_replace_expr_bool([&]() -> bool { return static_cast<bool>(f(__dredd_replace_expr_int(sizeof(a), 0))); }, 6); } }\n};\n"
    noopt := "// DREDD PRELUDE START\n// If this has been inserted at an inappropriate place in a source file,\n// declare a placeholder function with the following signature to\n// mandate where the prelude should be placed:\n//\n// void __dredd_prelude_start();\n//\n#include <atomic>\n#include <cinttypes>\n#include <cstddef>\n#include <fstream>\n#include <functional>\n#include <sstream>\n#include <string>\n\n\n#ifdef _MSC_VER\n#define thread_local __declspec(thread)\n#elif __APPLE__\n#define thread_local __thread\n#endif\n\nstatic thread_local bool __dredd_some_mutation_enabled = true;\nstatic bool __dredd_enabled_mutation(int local_mutation_id) {\n  static thread_local bool initialized = false;\n  static thread_local uint64_t enabled_bitset[1];\n  if (!initialized) {\n    bool some_mutation_enabled = false;\n    const char* dredd_environment_variable = std::getenv(\"DREDD_ENABLED_MUTATION\");\n    if (dredd_environment_variable != nullptr) {\n      std::string contents(dredd_environment_variable);\n      while (true) {\n        size_t pos = contents.find(\",\");\n        std::string token = (pos == std::string::npos ? contents : contents.substr(0, pos));\n        if (!token.empty()) {\n          int value = std::stoi(token);\n          int local_value = value - 0;\n          if (local_value >= 0 && local_value < 14) {\n            enabled_bitset[local_value / 64] |= (static_cast<uint64_t>(1) << (local_value % 64));\n            some_mutation_enabled = true;\n          }\n        }\n        if (pos == std::string::npos) {\n          break;\n        }\n        contents.erase(0, pos + 1);\n      }\n    }\n    initialized = true;\n    __dredd_some_mutation_enabled = some_mutation_enabled;\n  }\n  return (enabled_bitset[local_mutation_id / 64] & (static_cast<uint64_t>(1) << (local_mutation_id % 64))) != 0;\n}\n\nstatic unsigned long __dredd_replace_expr_unsigned_long(unsigned long arg, int local_mutation_id) {\n  if (!__dredd_some_mutation_enabled) return arg;\n  if (__dredd_enabled_mutation(local_mutation_id + 0)) return !(arg);\n  if (__dredd_enabled_mutation(local_mutation_id + 1)) return ~(arg);\n  if (__dredd_enabled_mutation(local_mutation_id + 2)) return 0;\n  if (__dredd_enabled_mutation(local_mutation_id + 3)) return 1;\n  return arg;\n}\n\nstatic int __dredd_replace_expr_int(int arg, int local_mutation_id) {\n  if (!__dredd_some_mutation_enabled) return arg;\n  if (__dredd_enabled_mutation(local_mutation_id + 0)) return !(arg);\n  if (__dredd_enabled_mutation(local_mutation_id + 1)) return ~(arg);\n  if (__dredd_enabled_mutation(local_mutation_id + 2)) return -(arg);\n  if (__dredd_enabled_mutation(local_mutation_id + 3)) return 0;\n  if (__dredd_enabled_mutation(local_mutation_id + 4)) return 1;\n  if (__dredd_enabled_mutation(local_mutation_id + 5)) return -1;\n  return arg;\n}\n\nstatic bool __dredd_replace_expr_bool(std::function<bool()> arg, int local_mutation_id) {\n  if (!__dredd_some_mutation_enabled) return arg();\n  if (__dredd_enabled_mutation(local_mutation_id + 0)) return !(arg());\n  if (__dredd_enabled_mutation(local_mutation_id + 1)) return true;\n  if (__dredd_enabled_mutation(local_mutation_id + 2)) return false;\n  return arg();\n}\n\nbool f(int);\n\ntemplate <typename a> struct b {\n  bool c() { if (!__dredd_enabled_mutation(13)) { return __dredd_replace_expr_bool([&]() -> bool { return static_cast<bool>(f(__dredd_replace_expr_int(__dredd_replace_expr_unsigned_long(sizeof(a), 0), 4))); }, 10); } }\n};\n" }

#guard sizeof_template2_cc.ok

/-- test/single_file/structured_binding.cc -/
def structured_binding_cc : Case :=
  let src : Text := t!"void foo() {\n  int a[2] = {1, 2};\n  if (true) {\n    auto [x, y] = a;\n    auto& [xr, yr] = a;\n    xr = y++;\n    yr = x++;\n  }\n}\n"
  { name := "structured_binding.cc", lang := cpp, src := src, ast :=
    .decl ⟨.tu, none⟩ [
     .decl ⟨.func false none, (some ⟨0, 126⟩)⟩ [
      st src .compound .plain (some ⟨11, 126⟩) [
       st src .declStmt .plain (some ⟨15, 33⟩) [
        .decl ⟨.var ⟨19, true, [⟨1001, (some ⟨21, 22⟩), some ⟨64, false, 2⟩⟩], [], false, false, false⟩, (some ⟨15, 32⟩)⟩ [
         .other .constArrayType [
          ex src .other (some .int) .plain 21 (some ⟨21, 22⟩) (fun f => { f with intVal := some 2, boolVal := some true, cxx11Const := true }) []],
         ex src .initList none .plain 26 (some ⟨26, 32⟩) id [
          ex src .other (some .int) .plain 27 (some ⟨27, 28⟩) (fun f => { f with intVal := some 1, boolVal := some true, cxx11Const := true }) [],
          ex src .other (some .int) .plain 30 (some ⟨30, 31⟩) (fun f => { f with intVal := some 2, boolVal := some true, cxx11Const := true }) []]]],
       st src (.if_ false) .plain (some ⟨36, 124⟩) [
        ex src .other (some .bool) .ifCond 40 (some ⟨40, 44⟩) (fun f => { f with intVal := some 1, boolVal := some true, cxx11Const := true }) [],
        st src .compound .plain (some ⟨46, 124⟩) [
         st src .declStmt .plain (some ⟨52, 68⟩) [
          .decl ⟨.varLike 57, (some ⟨52, 67⟩)⟩ []],
         st src .declStmt .plain (some ⟨73, 92⟩) [
          .decl ⟨.varLike 79, (some ⟨73, 91⟩)⟩ []],
         ex src (.binary .assign) (some .int) .plain 97 (some ⟨97, 105⟩) (fun f => { f with lvalue := true, sideEffects := true, opOff := some 100 }) [
          ex src .other (some .int) .lhs 97 (some ⟨97, 99⟩) (fun f => { f with lvalue := true }) [],
          ex src (.unary .postInc) (some .int) .rhs 102 (some ⟨102, 105⟩) (fun f => { f with sideEffects := true, opOff := some 103 }) [
           ex src .other (some .int) .operand 102 (some ⟨102, 103⟩) (fun f => { f with lvalue := true }) []]],
         ex src (.binary .assign) (some .int) .plain 111 (some ⟨111, 119⟩) (fun f => { f with lvalue := true, sideEffects := true, opOff := some 114 }) [
          ex src .other (some .int) .lhs 111 (some ⟨111, 113⟩) (fun f => { f with lvalue := true }) [],
          ex src (.unary .postInc) (some .int) .rhs 116 (some ⟨116, 119⟩) (fun f => { f with sideEffects := true, opOff := some 117 }) [
           ex src .other (some .int) .operand 116 (some ⟨116, 117⟩) (fun f => { f with lvalue := true }) []]]]]]]]
    expected := "// DREDD PRELUDE START\n// If this has been inserted at an inappropriate place in a source file,\n// declare a placeholder function with the following signature to\n// mandate where the prelude should be placed:\n//\n// void __dredd_prelude_start();\n//\n#include <atomic>\n#include <cinttypes>\n#include <cstddef>\n#include <fstream>\n#include <functional>\n#include <sstream>\n#include <string>\n\n\n#ifdef _MSC_VER\n#define thread_local __declspec(thread)\n#elif __APPLE__\n#define thread_local __thread\n#endif\n\nstatic thread_local bool __dredd_some_mutation_enabled = true;\nstatic bool __dredd_enabled_mutation(int local_mutation_id) {\n  static thread_local bool initialized = false;\n  static thread_local uint64_t enabled_bitset[1];\n  if (!initialized) {\n    bool some_mutation_enabled = false;\n    const char* dredd_environment_variable = std::getenv(\"DREDD_ENABLED_MUTATION\");\n    if (dredd_environment_variable != nullptr) {\n      std::string contents(dredd_environment_variable);\n      while (true) {\n        size_t pos = contents.find(\",\");\n        std::string token = (pos == std::string::npos ? contents : contents.substr(0, pos));\n        if (!token.empty()) {\n          int value = std::stoi(token);\n          int local_value = value - 0;\n          if (local_value >= 0 && local_value < 54) {\n            enabled_bitset[local_value / 64] |= (static_cast<uint64_t>(1) << (local_value % 64));\n            some_mutation_enabled = true;\n          }\n        }\n        if (pos == std::string::npos) {\n          break;\n        }\n        contents.erase(0, pos + 1);\n      }\n    }\n    initialized = true;\n    __dredd_some_mutation_enabled = some_mutation_enabled;\n  }\n  return (enabled_bitset[local_mutation_id / 64] & (static_cast<uint64_t>(1) << (local_mutation_id % 64))) != 0;\n}\n\nstatic int& __dredd_replace_binary_operator_Assign_arg1_int_arg2_int(int& arg1, std::function<int()> arg2, int local_mutation_id) {\n  if (!__dredd_some_mutation_enabled) return arg1 = arg2();\n  if (__dredd_enabled_mutation(local_mutation_id + 0)) return arg1 += arg2();\n  if (__dredd_enabled_mutation(local_mutation_id + 1)) return arg1 &= arg2();\n  if (__dredd_enabled_mutation(local_mutation_id + 2)) return arg1 /= arg2();\n  if (__dredd_enabled_mutation(local_mutation_id + 3)) return arg1 *= arg2();\n  if (__dredd_enabled_mutation(local_mutation_id + 4)) return arg1 |= arg2();\n  if (__dredd_enabled_mutation(local_mutation_id + 5)) return arg1 %= arg2();\n  if (__dredd_enabled_mutation(local_mutation_id + 6)) return arg1 <<= arg2();\n  if (__dredd_enabled_mutation(local_mutation_id + 7)) return arg1 >>= arg2();\n  if (__dredd_enabled_mutation(local_mutation_id + 8)) return arg1 -= arg2();\n  if (__dredd_enabled_mutation(local_mutation_id + 9)) return arg1 ^= arg2();\n  return arg1 = arg2();\n}\n\nstatic int __dredd_replace_unary_operator_PostInc_int(std::function<int&()> arg, int local_mutation_id) {\n  if (!__dredd_some_mutation_enabled) return arg()++;\n  if (__dredd_enabled_mutation(local_mutation_id + 0)) return arg()--;\n  if (__dredd_enabled_mutation(local_mutation_id + 1)) return ~arg();\n  if (__dredd_enabled_mutation(local_mutation_id + 2)) return -arg();\n  if (__dredd_enabled_mutation(local_mutation_id + 3)) return !arg();\n  if (__dredd_enabled_mutation(local_mutation_id + 4)) return arg();\n  return arg()++;\n}\n\nstatic int __dredd_replace_expr_int_one(int arg, int local_mutation_id) {\n  if (!__dredd_some_mutation_enabled) return arg;\n  if (__dredd_enabled_mutation(local_mutation_id + 0)) return ~(arg);\n  if (__dredd_enabled_mutation(local_mutation_id + 1)) return 0;\n  if (__dredd_enabled_mutation(local_mutation_id + 2)) return -1;\n  return arg;\n}\n\nstatic int __dredd_replace_expr_int_constant(int arg, int local_mutation_id) {\n  if (!__dredd_some_mutation_enabled) return arg;\n  if (__dredd_enabled_mutation(local_mutation_id + 0)) return ~(arg);\n  if (__dredd_enabled_mutation(local_mutation_id + 1)) return -(arg);\n  if (__dredd_enabled_mutation(local_mutation_id + 2)) return 0;\n  if (__dredd_enabled_mutation(local_mutation_id + 3)) return 1;\n  if (__dredd_enabled_mutation(local_mutation_id + 4)) return -1;\n  return arg;\n}\n\nstatic int __dredd_replace_expr_int(std::function<int()> arg, int local_mutation_id) {\n  if (!__dredd_some_mutation_enabled) return arg();\n  if (__dredd_enabled_mutation(local_mutation_id + 0)) return !(arg());\n  if (__dredd_enabled_mutation(local_mutation_id + 1)) return ~(arg());\n  if (__dredd_enabled_mutation(local_mutation_id + 2)) return -(arg());\n  if (__dredd_enabled_mutation(local_mutation_id + 3)) return 0;\n  if (__dredd_enabled_mutation(local_mutation_id + 4)) return 1;\n  if (__dredd_enabled_mutation(local_mutation_id + 5)) return -1;\n  return arg();\n}\n\nstatic bool __dredd_replace_expr_bool_true(bool arg, int local_mutation_id) {\n  if (!__dredd_some_mutation_enabled) return arg;\n  if (__dredd_enabled_mutation(local_mutation_id + 0)) return false;\n  return arg;\n}\n\nvoid foo() {\n  int a[2] = {__dredd_replace_expr_int_one(1, 0), __dredd_replace_expr_int_constant(2, 3)};\n  if (!__dredd_enabled_mutation(53)) { if (__dredd_replace_expr_bool_true(true, 8)) {\n    auto [x, y] = a;\n    auto& [xr, yr] = a;\n    if (!__dredd_enabled_mutation(30)) { __dredd_replace_binary_operator_Assign_arg1_int_arg2_int(xr , [&]() -> int { return static_cast<int>(__dredd_replace_expr_int([&]() -> int { return static_cast<int>(__dredd_replace_unary_operator_PostInc_int([&]() -> int& { return static_cast<int&>(y); }, 9)); }, 14)); }, 20); }\n    if (!__dredd_enabled_mutation(52)) { __dredd_replace_binary_operator_Assign_arg1_int_arg2_int(yr , [&]() -> int { return static_cast<int>(__dredd_replace_expr_int([&]() -> int { return static_cast<int>(__dredd_replace_unary_operator_PostInc_int([&]() -> int& { return static_cast<int&>(x); }, 31)); }, 36)); }, 42); }\n  } }\n}\n"
    noopt := "// DREDD PRELUDE START\n// If this has been inserted at an inappropriate place in a source file,\n// declare a placeholder function with the following signature to\n// mandate where the prelude should be placed:\n//\n// void __dredd_prelude_start();\n//\n#include <atomic>\n#include <cinttypes>\n#include <cstddef>\n#include <fstream>\n#include <functional>\n#include <sstream>\n#include <string>\n\n\n#ifdef _MSC_VER\n#define thread_local __declspec(thread)\n#elif __APPLE__\n#define thread_local __thread\n#endif\n\nstatic thread_local bool __dredd_some_mutation_enabled = true;\nstatic bool __dredd_enabled_mutation(int local_mutation_id) {\n  static thread_local bool initialized = false;\n  static thread_local uint64_t enabled_bitset[1];\n  if (!initialized) {\n    bool some_mutation_enabled = false;\n    const char* dredd_environment_variable = std::getenv(\"DREDD_ENABLED_MUTATION\");\n    if (dredd_environment_variable != nullptr) {\n      std::string contents(dredd_environment_variable);\n      while (true) {\n        size_t pos = contents.find(\",\");\n        std::string token = (pos == std::string::npos ? contents : contents.substr(0, pos));\n        if (!token.empty()) {\n          int value = std::stoi(token);\n          int local_value = value - 0;\n          if (local_value >= 0 && local_value < 60) {\n            enabled_bitset[local_value / 64] |= (static_cast<uint64_t>(1) << (local_value % 64));\n            some_mutation_enabled = true;\n          }\n        }\n        if (pos == std::string::npos) {\n          break;\n        }\n        contents.erase(0, pos + 1);\n      }\n    }\n    initialized = true;\n    __dredd_some_mutation_enabled = some_mutation_enabled;\n  }\n  return (enabled_bitset[local_mutation_id / 64] & (static_cast<uint64_t>(1) << (local_mutation_id % 64))) != 0;\n}\n\nstatic int& __dredd_replace_binary_operator_Assign_arg1_int_arg2_int(int& arg1, std::function<int()> arg2, int local_mutation_id) {\n  if (!__dredd_some_mutation_enabled) return arg1 = arg2();\n  if (__dredd_enabled_mutation(local_mutation_id + 0)) return arg1 += arg2();\n  if (__dredd_enabled_mutation(local_mutation_id + 1)) return arg1 &= arg2();\n  if (__dredd_enabled_mutation(local_mutation_id + 2)) return arg1 /= arg2();\n  if (__dredd_enabled_mutation(local_mutation_id + 3)) return arg1 *= arg2();\n  if (__dredd_enabled_mutation(local_mutation_id + 4)) return arg1 |= arg2();\n  if (__dredd_enabled_mutation(local_mutation_id + 5)) return arg1 %= arg2();\n  if (__dredd_enabled_mutation(local_mutation_id + 6)) return arg1 <<= arg2();\n  if (__dredd_enabled_mutation(local_mutation_id + 7)) return arg1 >>= arg2();\n  if (__dredd_enabled_mutation(local_mutation_id + 8)) return arg1 -= arg2();\n  if (__dredd_enabled_mutation(local_mutation_id + 9)) return arg1 ^= arg2();\n  return arg1 = arg2();\n}\n\nstatic int __dredd_replace_unary_operator_PostInc_int(std::function<int&()> arg, int local_mutation_id) {\n  if (!__dredd_some_mutation_enabled) return arg()++;\n  if (__dredd_enabled_mutation(local_mutation_id + 0)) return arg()--;\n  if (__dredd_enabled_mutation(local_mutation_id + 1)) return ~arg();\n  if (__dredd_enabled_mutation(local_mutation_id + 2)) return -arg();\n  if (__dredd_enabled_mutation(local_mutation_id + 3)) return !arg();\n  if (__dredd_enabled_mutation(local_mutation_id + 4)) return arg();\n  return arg()++;\n}\n\nstatic int __dredd_replace_expr_int(std::function<int()> arg, int local_mutation_id) {\n  if (!__dredd_some_mutation_enabled) return arg();\n  if (__dredd_enabled_mutation(local_mutation_id + 0)) return !(arg());\n  if (__dredd_enabled_mutation(local_mutation_id + 1)) return ~(arg());\n  if (__dredd_enabled_mutation(local_mutation_id + 2)) return -(arg());\n  if (__dredd_enabled_mutation(local_mutation_id + 3)) return 0;\n  if (__dredd_enabled_mutation(local_mutation_id + 4)) return 1;\n  if (__dredd_enabled_mutation(local_mutation_id + 5)) return -1;\n  return arg();\n}\n\nstatic int __dredd_replace_expr_int(int arg, int local_mutation_id) {\n  if (!__dredd_some_mutation_enabled) return arg;\n  if (__dredd_enabled_mutation(local_mutation_id + 0)) return !(arg);\n  if (__dredd_enabled_mutation(local_mutation_id + 1)) return ~(arg);\n  if (__dredd_enabled_mutation(local_mutation_id + 2)) return -(arg);\n  if (__dredd_enabled_mutation(local_mutation_id + 3)) return 0;\n  if (__dredd_enabled_mutation(local_mutation_id + 4)) return 1;\n  if (__dredd_enabled_mutation(local_mutation_id + 5)) return -1;\n  return arg;\n}\n\nstatic bool __dredd_replace_expr_bool(bool arg, int local_mutation_id) {\n  if (!__dredd_some_mutation_enabled) return arg;\n  if (__dredd_enabled_mutation(local_mutation_id + 0)) return !(arg);\n  if (__dredd_enabled_mutation(local_mutation_id + 1)) return true;\n  if (__dredd_enabled_mutation(local_mutation_id + 2)) return false;\n  return arg;\n}\n\nvoid foo() {\n  int a[2] = {__dredd_replace_expr_int(1, 0), __dredd_replace_expr_int(2, 6)};\n  if (!__dredd_enabled_mutation(59)) { if (__dredd_replace_expr_bool(true, 12)) {\n    auto [x, y] = a;\n    auto& [xr, yr] = a;\n    if (!__dredd_enabled_mutation(36)) { __dredd_replace_binary_operator_Assign_arg1_int_arg2_int(xr , [&]() -> int { return static_cast<int>(__dredd_replace_expr_int([&]() -> int { return static_cast<int>(__dredd_replace_unary_operator_PostInc_int([&]() -> int& { return static_cast<int&>(y); }, 15)); }, 20)); }, 26); }\n    if (!__dredd_enabled_mutation(58)) { __dredd_replace_binary_operator_Assign_arg1_int_arg2_int(yr , [&]() -> int { return static_cast<int>(__dredd_replace_expr_int([&]() -> int { return static_cast<int>(__dredd_replace_unary_operator_PostInc_int([&]() -> int& { return static_cast<int&>(x); }, 37)); }, 42)); }, 48); }\n  } }\n}\n" }

#guard structured_binding_cc.ok

/-- test/single_file/template_instantiation.cc -/
def template_instantiation_cc : Case :=
  let src : Text := t!"template<int N> void foo() {\n  int A[N] = {0};\n}\n\nint main() {\n  foo<1 + 2>();\n}\n"
  { name := "template_instantiation.cc", lang := cpp, src := src, ast :=
    .decl ⟨.tu, none⟩ [
     .decl ⟨.other, (some ⟨0, 48⟩)⟩ [
      .decl ⟨.func false none, (some ⟨16, 48⟩)⟩ [
       st src .compound .plain (some ⟨27, 48⟩) [
        st src .declStmt .plain (some ⟨31, 46⟩) [
         .decl ⟨.var ⟨35, false, [], [], false, false, false⟩, (some ⟨31, 45⟩)⟩ [
          .other .depArrayType [
           ex src .other (some .int) .plain 37 (some ⟨37, 38⟩) id []],
          ex src .initList none .plain 42 (some ⟨42, 45⟩) id [
           ex src .other (some .int) .plain 43 (some ⟨43, 44⟩) (fun f => { f with intVal := some 0, boolVal := some false, cxx11Const := true, nullConst := true }) []]]]]]],
     .decl ⟨.func false none, (some ⟨50, 80⟩)⟩ [
      st src .compound .plain (some ⟨61, 80⟩) [
       ex src (.call none false false) none .plain 65 (some ⟨65, 77⟩) (fun f => { f with sideEffects := true }) [
        ex src (.cast true false) none .plain 65 (some ⟨65, 75⟩) (fun f => { f with anyPointer := true, pointer := true }) [
         ex src .other none .operand 65 (some ⟨65, 75⟩) (fun f => { f with lvalue := true }) [
          .other .templateArg [
           ex src (.binary .add) (some .int) .plain 69 (some ⟨69, 74⟩) (fun f => { f with intVal := some 3, boolVal := some true, cxx11Const := true, opOff := some 71 }) [
            ex src .other (some .int) .lhs 69 (some ⟨69, 70⟩) (fun f => { f with intVal := some 1, boolVal := some true, cxx11Const := true }) [],
            ex src .other (some .int) .rhs 73 (some ⟨73, 74⟩) (fun f => { f with intVal := some 2, boolVal := some true, cxx11Const := true }) []]]]]]]]]
    expected := "// DREDD PRELUDE START\n// If this has been inserted at an inappropriate place in a source file,\n// declare a placeholder function with the following signature to\n// mandate where the prelude should be placed:\n//\n// void __dredd_prelude_start();\n//\n#include <atomic>\n#include <cinttypes>\n#include <cstddef>\n#include <fstream>\n#include <functional>\n#include <sstream>\n#include <string>\n\n\n#ifdef _MSC_VER\n#define thread_local __declspec(thread)\n#elif __APPLE__\n#define thread_local __thread\n#endif\n\nstatic thread_local bool __dredd_some_mutation_enabled = true;\nstatic bool __dredd_enabled_mutation(int local_mutation_id) {\n  static thread_local bool initialized = false;\n  static thread_local uint64_t enabled_bitset[1];\n  if (!initialized) {\n    bool some_mutation_enabled = false;\n    const char* dredd_environment_variable = std::getenv(\"DREDD_ENABLED_MUTATION\");\n    if (dredd_environment_variable != nullptr) {\n      std::string contents(dredd_environment_variable);\n      while (true) {\n        size_t pos = contents.find(\",\");\n        std::string token = (pos == std::string::npos ? contents : contents.substr(0, pos));\n        if (!token.empty()) {\n          int value = std::stoi(token);\n          int local_value = value - 0;\n          if (local_value >= 0 && local_value < 3) {\n            enabled_bitset[local_value / 64] |= (static_cast<uint64_t>(1) << (local_value % 64));\n            some_mutation_enabled = true;\n          }\n        }\n        if (pos == std::string::npos) {\n          break;\n        }\n        contents.erase(0, pos + 1);\n      }\n    }\n    initialized = true;\n    __dredd_some_mutation_enabled = some_mutation_enabled;\n  }\n  return (enabled_bitset[local_mutation_id / 64] & (static_cast<uint64_t>(1) << (local_mutation_id % 64))) != 0;\n}\n\nstatic int __dredd_replace_expr_int_zero(int arg, int local_mutation_id) {\n  if (!__dredd_some_mutation_enabled) return arg;\n  if (__dredd_enabled_mutation(local_mutation_id + 0)) return 1;\n  if (__dredd_enabled_mutation(local_mutation_id + 1)) return -1;\n  return arg;\n}\n\ntemplate<int N> void foo() {\n  int A[N] = {__dredd_replace_expr_int_zero(0, 0)};\n}\n\nint main() {\n  if (!__dredd_enabled_mutation(2)) { foo<1 + 2>(); }\n}\n"
    noopt := "// DREDD PRELUDE START\n// If this has been inserted at an inappropriate place in a source file,\n// declare a placeholder function with the following signature to\n// mandate where the prelude should be placed:\n//\n// void __dredd_prelude_start();\n//\n#include <atomic>\n#include <cinttypes>\n#include <cstddef>\n#include <fstream>\n#include <functional>\n#include <sstream>\n#include <string>\n\n\n#ifdef _MSC_VER\n#define thread_local __declspec(thread)\n#elif __APPLE__\n#define thread_local __thread\n#endif\n\nstatic thread_local bool __dredd_some_mutation_enabled = true;\nstatic bool __dredd_enabled_mutation(int local_mutation_id) {\n  static thread_local bool initialized = false;\n  static thread_local uint64_t enabled_bitset[1];\n  if (!initialized) {\n    bool some_mutation_enabled = false;\n    const char* dredd_environment_variable = std::getenv(\"DREDD_ENABLED_MUTATION\");\n    if (dredd_environment_variable != nullptr) {\n      std::string contents(dredd_environment_variable);\n      while (true) {\n        size_t pos = contents.find(\",\");\n        std::string token = (pos == std::string::npos ? contents : contents.substr(0, pos));\n        if (!token.empty()) {\n          int value = std::stoi(token);\n          int local_value = value - 0;\n          if (local_value >= 0 && local_value < 7) {\n            enabled_bitset[local_value / 64] |= (static_cast<uint64_t>(1) << (local_value % 64));\n            some_mutation_enabled = true;\n          }\n        }\n        if (pos == std::string::npos) {\n          break;\n        }\n        contents.erase(0, pos + 1);\n      }\n    }\n    initialized = true;\n    __dredd_some_mutation_enabled = some_mutation_enabled;\n  }\n  return (enabled_bitset[local_mutation_id / 64] & (static_cast<uint64_t>(1) << (local_mutation_id % 64))) != 0;\n}\n\nstatic int __dredd_replace_expr_int(int arg, int local_mutation_id) {\n  if (!__dredd_some_mutation_enabled) return arg;\n  if (__dredd_enabled_mutation(local_mutation_id + 0)) return !(arg);\n  if (__dredd_enabled_mutation(local_mutation_id + 1)) return ~(arg);\n  if (__dredd_enabled_mutation(local_mutation_id + 2)) return -(arg);\n  if (__dredd_enabled_mutation(local_mutation_id + 3)) return 0;\n  if (__dredd_enabled_mutation(local_mutation_id + 4)) return 1;\n  if (__dredd_enabled_mutation(local_mutation_id + 5)) return -1;\n  return arg;\n}\n\ntemplate<int N> void foo() {\n  int A[N] = {__dredd_replace_expr_int(0, 0)};\n}\n\nint main() {\n  if (!__dredd_enabled_mutation(6)) { foo<1 + 2>(); }\n}\n" }

#guard template_instantiation_cc.ok

/-- test/single_file/template_instantiation_const_expr.cc -/
def template_instantiation_const_expr_cc : Case :=
  let src : Text := t!"template<typename T, int N>\nclass bar {};\n\nvoid foo() {\n  const int count = 42;\n  bar<int, count> a;\n}\n"
  { name := "template_instantiation_const_expr.cc", lang := cpp, src := src, ast :=
    .decl ⟨.tu, none⟩ [
     .decl ⟨.other, (some ⟨0, 40⟩)⟩ [],
     .decl ⟨.func false none, (some ⟨43, 102⟩)⟩ [
      st src .compound .plain (some ⟨54, 102⟩) [
       st src .declStmt .plain (some ⟨58, 79⟩) [
        .decl ⟨.var ⟨68, false, [], [], false, false, false⟩, (some ⟨58, 78⟩)⟩ [
         ex src .other (some .int) .plain 76 (some ⟨76, 78⟩) (fun f => { f with intVal := some 42, boolVal := some true, cxx11Const := true }) []]],
       st src .declStmt .plain (some ⟨82, 100⟩) [
        .decl ⟨.var ⟨98, false, [], [.other, .expr ⟨1001, (some ⟨91, 96⟩), some ⟨32, true, 42⟩⟩], false, false, false⟩, (some ⟨82, 99⟩)⟩ [
         .other .templateArg [],
         ex src .construct none .plain 98 (some ⟨98, 99⟩) id []]]]]]
    expected := "// DREDD PRELUDE START\n// If this has been inserted at an inappropriate place in a source file,\n// declare a placeholder function with the following signature to\n// mandate where the prelude should be placed:\n//\n// void __dredd_prelude_start();\n//\n#include <atomic>\n#include <cinttypes>\n#include <cstddef>\n#include <fstream>\n#include <functional>\n#include <sstream>\n#include <string>\n\n\n#ifdef _MSC_VER\n#define thread_local __declspec(thread)\n#elif __APPLE__\n#define thread_local __thread\n#endif\n\nstatic thread_local bool __dredd_some_mutation_enabled = true;\nstatic bool __dredd_enabled_mutation(int local_mutation_id) {\n  static thread_local bool initialized = false;\n  static thread_local uint64_t enabled_bitset[1];\n  if (!initialized) {\n    bool some_mutation_enabled = false;\n    const char* dredd_environment_variable = std::getenv(\"DREDD_ENABLED_MUTATION\");\n    if (dredd_environment_variable != nullptr) {\n      std::string contents(dredd_environment_variable);\n      while (true) {\n        size_t pos = contents.find(\",\");\n        std::string token = (pos == std::string::npos ? contents : contents.substr(0, pos));\n        if (!token.empty()) {\n          int value = std::stoi(token);\n          int local_value = value - 0;\n          if (local_value >= 0 && local_value < 5) {\n            enabled_bitset[local_value / 64] |= (static_cast<uint64_t>(1) << (local_value % 64));\n            some_mutation_enabled = true;\n          }\n        }\n        if (pos == std::string::npos) {\n          break;\n        }\n        contents.erase(0, pos + 1);\n      }\n    }\n    initialized = true;\n    __dredd_some_mutation_enabled = some_mutation_enabled;\n  }\n  return (enabled_bitset[local_mutation_id / 64] & (static_cast<uint64_t>(1) << (local_mutation_id % 64))) != 0;\n}\n\nstatic int __dredd_replace_expr_int_constant(int arg, int local_mutation_id) {\n  if (!__dredd_some_mutation_enabled) return arg;\n  if (__dredd_enabled_mutation(local_mutation_id + 0)) return ~(arg);\n  if (__dredd_enabled_mutation(local_mutation_id + 1)) return -(arg);\n  if (__dredd_enabled_mutation(local_mutation_id + 2)) return 0;\n  if (__dredd_enabled_mutation(local_mutation_id + 3)) return 1;\n  if (__dredd_enabled_mutation(local_mutation_id + 4)) return -1;\n  return arg;\n}\n\ntemplate<typename T, int N>\nclass bar {};\n\nvoid foo() {\n  const int count = __dredd_replace_expr_int_constant(42, 0);\n  bar<int, 42> a;\n}\n"
    noopt := "// DREDD PRELUDE START\n// If this has been inserted at an inappropriate place in a source file,\n// declare a placeholder function with the following signature to\n// mandate where the prelude should be placed:\n//\n// void __dredd_prelude_start();\n//\n#include <atomic>\n#include <cinttypes>\n#include <cstddef>\n#include <fstream>\n#include <functional>\n#include <sstream>\n#include <string>\n\n\n#ifdef _MSC_VER\n#define thread_local __declspec(thread)\n#elif __APPLE__\n#define thread_local __thread\n#endif\n\nstatic thread_local bool __dredd_some_mutation_enabled = true;\nstatic bool __dredd_enabled_mutation(int local_mutation_id) {\n  static thread_local bool initialized = false;\n  static thread_local uint64_t enabled_bitset[1];\n  if (!initialized) {\n    bool some_mutation_enabled = false;\n    const char* dredd_environment_variable = std::getenv(\"DREDD_ENABLED_MUTATION\");\n    if (dredd_environment_variable != nullptr) {\n      std::string contents(dredd_environment_variable);\n      while (true) {\n        size_t pos = contents.find(\",\");\n        std::string token = (pos == std::string::npos ? contents : contents.substr(0, pos));\n        if (!token.empty()) {\n          int value = std::stoi(token);\n          int local_value = value - 0;\n          if (local_value >= 0 && local_value < 6) {\n            enabled_bitset[local_value / 64] |= (static_cast<uint64_t>(1) << (local_value % 64));\n            some_mutation_enabled = true;\n          }\n        }\n        if (pos == std::string::npos) {\n          break;\n        }\n        contents.erase(0, pos + 1);\n      }\n    }\n    initialized = true;\n    __dredd_some_mutation_enabled = some_mutation_enabled;\n  }\n  return (enabled_bitset[local_mutation_id / 64] & (static_cast<uint64_t>(1) << (local_mutation_id % 64))) != 0;\n}\n\nstatic int __dredd_replace_expr_int(int arg, int local_mutation_id) {\n  if (!__dredd_some_mutation_enabled) return arg;\n  if (__dredd_enabled_mutation(local_mutation_id + 0)) return !(arg);\n  if (__dredd_enabled_mutation(local_mutation_id + 1)) return ~(arg);\n  if (__dredd_enabled_mutation(local_mutation_id + 2)) return -(arg);\n  if (__dredd_enabled_mutation(local_mutation_id + 3)) return 0;\n  if (__dredd_enabled_mutation(local_mutation_id + 4)) return 1;\n  if (__dredd_enabled_mutation(local_mutation_id + 5)) return -1;\n  return arg;\n}\n\ntemplate<typename T, int N>\nclass bar {};\n\nvoid foo() {\n  const int count = __dredd_replace_expr_int(42, 0);\n  bar<int, 42> a;\n}\n" }

#guard template_instantiation_const_expr_cc.ok

/-- test/single_file/template_instantiation_nested_const_expr.cc -/
def template_instantiation_nested_const_expr_cc : Case :=
  let src : Text := t!"template<typename T, int N>\nclass bar {};\n\nvoid foo() {\n  const int count = 42;\n  bar<bar<int, count * 2>, count> a;\n}\n"
  { name := "template_instantiation_nested_const_expr.cc", lang := cpp, src := src, ast :=
    .decl ⟨.tu, none⟩ [
     .decl ⟨.other, (some ⟨0, 40⟩)⟩ [],
     .decl ⟨.func false none, (some ⟨43, 118⟩)⟩ [
      st src .compound .plain (some ⟨54, 118⟩) [
       st src .declStmt .plain (some ⟨58, 79⟩) [
        .decl ⟨.var ⟨68, false, [], [], false, false, false⟩, (some ⟨58, 78⟩)⟩ [
         ex src .other (some .int) .plain 76 (some ⟨76, 78⟩) (fun f => { f with intVal := some 42, boolVal := some true, cxx11Const := true }) []]],
       st src .declStmt .plain (some ⟨82, 116⟩) [
        .decl ⟨.var ⟨114, false, [], [.type [.other, .expr ⟨1001, (some ⟨95, 104⟩), some ⟨32, true, 84⟩⟩], .expr ⟨1002, (some ⟨107, 112⟩), some ⟨32, true, 42⟩⟩], false, false, false⟩, (some ⟨82, 115⟩)⟩ [
         .other .templateArg [],
         ex src .construct none .plain 114 (some ⟨114, 115⟩) id []]]]]]
    expected := "// DREDD PRELUDE START\n// If this has been inserted at an inappropriate place in a source file,\n// declare a placeholder function with the following signature to\n// mandate where the prelude should be placed:\n//\n// void __dredd_prelude_start();\n//\n#include <atomic>\n#include <cinttypes>\n#include <cstddef>\n#include <fstream>\n#include <functional>\n#include <sstream>\n#include <string>\n\n\n#ifdef _MSC_VER\n#define thread_local __declspec(thread)\n#elif __APPLE__\n#define thread_local __thread\n#endif\n\nstatic thread_local bool __dredd_some_mutation_enabled = true;\nstatic bool __dredd_enabled_mutation(int local_mutation_id) {\n  static thread_local bool initialized = false;\n  static thread_local uint64_t enabled_bitset[1];\n  if (!initialized) {\n    bool some_mutation_enabled = false;\n    const char* dredd_environment_variable = std::getenv(\"DREDD_ENABLED_MUTATION\");\n    if (dredd_environment_variable != nullptr) {\n      std::string contents(dredd_environment_variable);\n      while (true) {\n        size_t pos = contents.find(\",\");\n        std::string token = (pos == std::string::npos ? contents : contents.substr(0, pos));\n        if (!token.empty()) {\n          int value = std::stoi(token);\n          int local_value = value - 0;\n          if (local_value >= 0 && local_value < 5) {\n            enabled_bitset[local_value / 64] |= (static_cast<uint64_t>(1) << (local_value % 64));\n            some_mutation_enabled = true;\n          }\n        }\n        if (pos == std::string::npos) {\n          break;\n        }\n        contents.erase(0, pos + 1);\n      }\n    }\n    initialized = true;\n    __dredd_some_mutation_enabled = some_mutation_enabled;\n  }\n  return (enabled_bitset[local_mutation_id / 64] & (static_cast<uint64_t>(1) << (local_mutation_id % 64))) != 0;\n}\n\nstatic int __dredd_replace_expr_int_constant(int arg, int local_mutation_id) {\n  if (!__dredd_some_mutation_enabled) return arg;\n  if (__dredd_enabled_mutation(local_mutation_id + 0)) return ~(arg);\n  if (__dredd_enabled_mutation(local_mutation_id + 1)) return -(arg);\n  if (__dredd_enabled_mutation(local_mutation_id + 2)) return 0;\n  if (__dredd_enabled_mutation(local_mutation_id + 3)) return 1;\n  if (__dredd_enabled_mutation(local_mutation_id + 4)) return -1;\n  return arg;\n}\n\ntemplate<typename T, int N>\nclass bar {};\n\nvoid foo() {\n  const int count = __dredd_replace_expr_int_constant(42, 0);\n  bar<bar<int, 84>, 42> a;\n}\n"
    noopt := "// DREDD PRELUDE START\n// If this has been inserted at an inappropriate place in a source file,\n// declare a placeholder function with the following signature to\n// mandate where the prelude should be placed:\n//\n// void __dredd_prelude_start();\n//\n#include <atomic>\n#include <cinttypes>\n#include <cstddef>\n#include <fstream>\n#include <functional>\n#include <sstream>\n#include <string>\n\n\n#ifdef _MSC_VER\n#define thread_local __declspec(thread)\n#elif __APPLE__\n#define thread_local __thread\n#endif\n\nstatic thread_local bool __dredd_some_mutation_enabled = true;\nstatic bool __dredd_enabled_mutation(int local_mutation_id) {\n  static thread_local bool initialized = false;\n  static thread_local uint64_t enabled_bitset[1];\n  if (!initialized) {\n    bool some_mutation_enabled = false;\n    const char* dredd_environment_variable = std::getenv(\"DREDD_ENABLED_MUTATION\");\n    if (dredd_environment_variable != nullptr) {\n      std::string contents(dredd_environment_variable);\n      while (true) {\n        size_t pos = contents.find(\",\");\n        std::string token = (pos == std::string::npos ? contents : contents.substr(0, pos));\n        if (!token.empty()) {\n          int value = std::stoi(token);\n          int local_value = value - 0;\n          if (local_value >= 0 && local_value < 6) {\n            enabled_bitset[local_value / 64] |= (static_cast<uint64_t>(1) << (local_value % 64));\n            some_mutation_enabled = true;\n          }\n        }\n        if (pos == std::string::npos) {\n          break;\n        }\n        contents.erase(0, pos + 1);\n      }\n    }\n    initialized = true;\n    __dredd_some_mutation_enabled = some_mutation_enabled;\n  }\n  return (enabled_bitset[local_mutation_id / 64] & (static_cast<uint64_t>(1) << (local_mutation_id % 64))) != 0;\n}\n\nstatic int __dredd_replace_expr_int(int arg, int local_mutation_id) {\n  if (!__dredd_some_mutation_enabled) return arg;\n  if (__dredd_enabled_mutation(local_mutation_id + 0)) return !(arg);\n  if (__dredd_enabled_mutation(local_mutation_id + 1)) return ~(arg);\n  if (__dredd_enabled_mutation(local_mutation_id + 2)) return -(arg);\n  if (__dredd_enabled_mutation(local_mutation_id + 3)) return 0;\n  if (__dredd_enabled_mutation(local_mutation_id + 4)) return 1;\n  if (__dredd_enabled_mutation(local_mutation_id + 5)) return -1;\n  return arg;\n}\n\ntemplate<typename T, int N>\nclass bar {};\n\nvoid foo() {\n  const int count = __dredd_replace_expr_int(42, 0);\n  bar<bar<int, 84>, 42> a;\n}\n" }

#guard template_instantiation_nested_const_expr_cc.ok

/-- test/single_file/template_instantiation_non_integer_expr.cc -/
def template_instantiation_non_integer_expr_cc : Case :=
  let src : Text := t!"template <long> struct b;\ntemplate <long c> b<c> d;\n\nvoid foo() {\n  int x = 42;\n}\n"
  { name := "template_instantiation_non_integer_expr.cc", lang := cpp, src := src, ast :=
    .decl ⟨.tu, none⟩ [
     .decl ⟨.other, (some ⟨0, 24⟩)⟩ [],
     .decl ⟨.other, (some ⟨26, 50⟩)⟩ [
      .decl ⟨.var ⟨49, false, [], [.expr ⟨1001, (some ⟨46, 47⟩), none⟩], false, false, false⟩, (some ⟨44, 50⟩)⟩ [
       .other .templateArg []]],
     .decl ⟨.func false none, (some ⟨53, 81⟩)⟩ [
      st src .compound .plain (some ⟨64, 81⟩) [
       st src .declStmt .plain (some ⟨68, 79⟩) [
        .decl ⟨.var ⟨72, false, [], [], false, false, false⟩, (some ⟨68, 78⟩)⟩ [
         ex src .other (some .int) .plain 76 (some ⟨76, 78⟩) (fun f => { f with intVal := some 42, boolVal := some true, cxx11Const := true }) []]]]]]
    expected := "// DREDD PRELUDE START\n// If this has been inserted at an inappropriate place in a source file,\n// declare a placeholder function with the following signature to\n// mandate where the prelude should be placed:\n//\n// void __dredd_prelude_start();\n//\n#include <atomic>\n#include <cinttypes>\n#include <cstddef>\n#include <fstream>\n#include <functional>\n#include <sstream>\n#include <string>\n\n\n#ifdef _MSC_VER\n#define thread_local __declspec(thread)\n#elif __APPLE__\n#define thread_local __thread\n#endif\n\nstatic thread_local bool __dredd_some_mutation_enabled = true;\nstatic bool __dredd_enabled_mutation(int local_mutation_id) {\n  static thread_local bool initialized = false;\n  static thread_local uint64_t enabled_bitset[1];\n  if (!initialized) {\n    bool some_mutation_enabled = false;\n    const char* dredd_environment_variable = std::getenv(\"DREDD_ENABLED_MUTATION\");\n    if (dredd_environment_variable != nullptr) {\n      std::string contents(dredd_environment_variable);\n      while (true) {\n        size_t pos = contents.find(\",\");\n        std::string token = (pos == std::string::npos ? contents : contents.substr(0, pos));\n        if (!token.empty()) {\n          int value = std::stoi(token);\n          int local_value = value - 0;\n          if (local_value >= 0 && local_value < 5) {\n            enabled_bitset[local_value / 64] |= (static_cast<uint64_t>(1) << (local_value % 64));\n            some_mutation_enabled = true;\n          }\n        }\n        if (pos == std::string::npos) {\n          break;\n        }\n        contents.erase(0, pos + 1);\n      }\n    }\n    initialized = true;\n    __dredd_some_mutation_enabled = some_mutation_enabled;\n  }\n  return (enabled_bitset[local_mutation_id / 64] & (static_cast<uint64_t>(1) << (local_mutation_id % 64))) != 0;\n}\n\nstatic int __dredd_replace_expr_int_constant(int arg, int local_mutation_id) {\n  if (!__dredd_some_mutation_enabled) return arg;\n  if (__dredd_enabled_mutation(local_mutation_id + 0)) return ~(arg);\n  if (__dredd_enabled_mutation(local_mutation_id + 1)) return -(arg);\n  if (__dredd_enabled_mutation(local_mutation_id + 2)) return 0;\n  if (__dredd_enabled_mutation(local_mutation_id + 3)) return 1;\n  if (__dredd_enabled_mutation(local_mutation_id + 4)) return -1;\n  return arg;\n}\n\ntemplate <long> struct b;\ntemplate <long c> b<c> d;\n\nvoid foo() {\n  int x = __dredd_replace_expr_int_constant(42, 0);\n}\n"
    noopt := "// DREDD PRELUDE START\n// If this has been inserted at an inappropriate place in a source file,\n// declare a placeholder function with the following signature to\n// mandate where the prelude should be placed:\n//\n// void __dredd_prelude_start();\n//\n#include <atomic>\n#include <cinttypes>\n#include <cstddef>\n#include <fstream>\n#include <functional>\n#include <sstream>\n#include <string>\n\n\n#ifdef _MSC_VER\n#define thread_local __declspec(thread)\n#elif __APPLE__\n#define thread_local __thread\n#endif\n\nstatic thread_local bool __dredd_some_mutation_enabled = true;\nstatic bool __dredd_enabled_mutation(int local_mutation_id) {\n  static thread_local bool initialized = false;\n  static thread_local uint64_t enabled_bitset[1];\n  if (!initialized) {\n    bool some_mutation_enabled = false;\n    const char* dredd_environment_variable = std::getenv(\"DREDD_ENABLED_MUTATION\");\n    if (dredd_environment_variable != nullptr) {\n      std::string contents(dredd_environment_variable);\n      while (true) {\n        size_t pos = contents.find(\",\");\n        std::string token = (pos == std::string::npos ? contents : contents.substr(0, pos));\n        if (!token.empty()) {\n          int value = std::stoi(token);\n          int local_value = value - 0;\n          if (local_value >= 0 && local_value < 6) {\n            enabled_bitset[local_value / 64] |= (static_cast<uint64_t>(1) << (local_value % 64));\n            some_mutation_enabled = true;\n          }\n        }\n        if (pos == std::string::npos) {\n          break;\n        }\n        contents.erase(0, pos + 1);\n      }\n    }\n    initialized = true;\n    __dredd_some_mutation_enabled = some_mutation_enabled;\n  }\n  return (enabled_bitset[local_mutation_id / 64] & (static_cast<uint64_t>(1) << (local_mutation_id % 64))) != 0;\n}\n\nstatic int __dredd_replace_expr_int(int arg, int local_mutation_id) {\n  if (!__dredd_some_mutation_enabled) return arg;\n  if (__dredd_enabled_mutation(local_mutation_id + 0)) return !(arg);\n  if (__dredd_enabled_mutation(local_mutation_id + 1)) return ~(arg);\n  if (__dredd_enabled_mutation(local_mutation_id + 2)) return -(arg);\n  if (__dredd_enabled_mutation(local_mutation_id + 3)) return 0;\n  if (__dredd_enabled_mutation(local_mutation_id + 4)) return 1;\n  if (__dredd_enabled_mutation(local_mutation_id + 5)) return -1;\n  return arg;\n}\n\ntemplate <long> struct b;\ntemplate <long c> b<c> d;\n\nvoid foo() {\n  int x = __dredd_replace_expr_int(42, 0);\n}\n" }

#guard template_instantiation_non_integer_expr_cc.ok

/-- test/single_file/user_defined_literals.cc -/
def user_defined_literals_cc : Case :=
  let src : Text := t!"#include <cstdint>\n\n// Number wraps integer, enforcing explicit casting\nstruct Number {\n    \n    uint32_t value = {};\n    \n    explicit Number(unsigned long long int v) : value(static_cast<uint32_t>(v)) {}\n\n};\n\nusing u32 = Number;\n\ninline u32 operator\"\"_u(unsigned long long int value) {\n    return u32(static_cast<uint32_t>(value));\n}\n\nint main() {\n    \n    u32 foo = 1_u;\n\n    return 0;\n}\n"
  { name := "user_defined_literals.cc", lang := cpp, src := src, ast :=
    .decl ⟨.tu, none⟩ [
     .decl ⟨.other, (some ⟨72, 208⟩)⟩ [
      .decl ⟨.field false [], (some ⟨97, 116⟩)⟩ [
       ex src .initList (some .uint) .plain 114 (some ⟨114, 116⟩) id []],
      .decl ⟨.func false none, (some ⟨127, 205⟩)⟩ [
       .decl ⟨.parm, (some ⟨143, 167⟩)⟩ [],
       ex src (.cast false false) (some .uint) .plain 177 (some ⟨177, 201⟩) id [
        ex src (.cast true false) (some .uint) .operand 199 (some ⟨199, 200⟩) id [
         ex src (.cast true false) (some .ulonglong) .operand 199 (some ⟨199, 200⟩) id [
          ex src .other (some .ulonglong) .operand 199 (some ⟨199, 200⟩) (fun f => { f with lvalue := true }) []]]],
       st src .compound .plain (some ⟨203, 205⟩) []]],
     .decl ⟨.other, (some ⟨211, 229⟩)⟩ [],
     .decl ⟨.func false none, (some ⟨232, 335⟩)⟩ [
      .decl ⟨.parm, (some ⟨256, 284⟩)⟩ [],
      st src .compound .plain (some ⟨286, 335⟩) [
       st src .other .plain (some ⟨292, 332⟩) [
        ex src (.cast false false) none .plain 299 (some ⟨299, 332⟩) (fun f => { f with sideEffects := true }) [
         ex src .construct none .operand 299 (some ⟨299, 332⟩) (fun f => { f with sideEffects := true }) [
          ex src (.cast true false) (some .ulonglong) .callArg 303 (some ⟨303, 331⟩) id [
           ex src (.cast false false) (some .uint) .operand 303 (some ⟨303, 331⟩) id [
            ex src (.cast true false) (some .uint) .operand 325 (some ⟨325, 330⟩) id [
             ex src (.cast true false) (some .ulonglong) .operand 325 (some ⟨325, 330⟩) id [
              ex src .other (some .ulonglong) .operand 325 (some ⟨325, 330⟩) (fun f => { f with lvalue := true }) []]]]]]]]]],
     .decl ⟨.func false none, (some ⟨337, 390⟩)⟩ [
      st src .compound .plain (some ⟨348, 390⟩) [
       st src .declStmt .plain (some ⟨359, 373⟩) [
        .decl ⟨.var ⟨363, false, [], [], false, false, false⟩, (some ⟨359, 372⟩)⟩ [
         ex src .userLiteral none .plain 369 (some ⟨369, 372⟩) (fun f => { f with sideEffects := true }) []]],
       st src .other .plain (some ⟨379, 387⟩) [
        ex src .other (some .int) .plain 386 (some ⟨386, 387⟩) (fun f => { f with intVal := some 0, boolVal := some false, cxx11Const := true, nullConst := true }) []]]]]
    expected := "// DREDD PRELUDE START\n// If this has been inserted at an inappropriate place in a source file,\n// declare a placeholder function with the following signature to\n// mandate where the prelude should be placed:\n//\n// void __dredd_prelude_start();\n//\n#include <atomic>\n#include <cinttypes>\n#include <cstddef>\n#include <fstream>\n#include <functional>\n#include <sstream>\n#include <string>\n\n\n#ifdef _MSC_VER\n#define thread_local __declspec(thread)\n#elif __APPLE__\n#define thread_local __thread\n#endif\n\nstatic thread_local bool __dredd_some_mutation_enabled = true;\nstatic bool __dredd_enabled_mutation(int local_mutation_id) {\n  static thread_local bool initialized = false;\n  static thread_local uint64_t enabled_bitset[1];\n  if (!initialized) {\n    bool some_mutation_enabled = false;\n    const char* dredd_environment_variable = std::getenv(\"DREDD_ENABLED_MUTATION\");\n    if (dredd_environment_variable != nullptr) {\n      std::string contents(dredd_environment_variable);\n      while (true) {\n        size_t pos = contents.find(\",\");\n        std::string token = (pos == std::string::npos ? contents : contents.substr(0, pos));\n        if (!token.empty()) {\n          int value = std::stoi(token);\n          int local_value = value - 0;\n          if (local_value >= 0 && local_value < 16) {\n            enabled_bitset[local_value / 64] |= (static_cast<uint64_t>(1) << (local_value % 64));\n            some_mutation_enabled = true;\n          }\n        }\n        if (pos == std::string::npos) {\n          break;\n        }\n        contents.erase(0, pos + 1);\n      }\n    }\n    initialized = true;\n    __dredd_some_mutation_enabled = some_mutation_enabled;\n  }\n  return (enabled_bitset[local_mutation_id / 64] & (static_cast<uint64_t>(1) << (local_mutation_id % 64))) != 0;\n}\n\nstatic unsigned long long __dredd_replace_expr_unsigned_long_long_lvalue(unsigned long long& arg, int local_mutation_id) {\n  if (!__dredd_some_mutation_enabled) return arg;\n  if (__dredd_enabled_mutation(local_mutation_id + 0)) return ++(arg);\n  if (__dredd_enabled_mutation(local_mutation_id + 1)) return --(arg);\n  return arg;\n}\n\nstatic unsigned long long __dredd_replace_expr_unsigned_long_long(unsigned long long arg, int local_mutation_id) {\n  if (!__dredd_some_mutation_enabled) return arg;\n  if (__dredd_enabled_mutation(local_mutation_id + 0)) return !(arg);\n  if (__dredd_enabled_mutation(local_mutation_id + 1)) return ~(arg);\n  if (__dredd_enabled_mutation(local_mutation_id + 2)) return 0;\n  if (__dredd_enabled_mutation(local_mutation_id + 3)) return 1;\n  return arg;\n}\n\nstatic unsigned int __dredd_replace_expr_unsigned_int(unsigned int arg, int local_mutation_id) {\n  if (!__dredd_some_mutation_enabled) return arg;\n  if (__dredd_enabled_mutation(local_mutation_id + 0)) return !(arg);\n  if (__dredd_enabled_mutation(local_mutation_id + 1)) return ~(arg);\n  if (__dredd_enabled_mutation(local_mutation_id + 2)) return 0;\n  if (__dredd_enabled_mutation(local_mutation_id + 3)) return 1;\n  return arg;\n}\n\nstatic int __dredd_replace_expr_int_zero(int arg, int local_mutation_id) {\n  if (!__dredd_some_mutation_enabled) return arg;\n  if (__dredd_enabled_mutation(local_mutation_id + 0)) return 1;\n  if (__dredd_enabled_mutation(local_mutation_id + 1)) return -1;\n  return arg;\n}\n\n#include <cstdint>\n\n// Number wraps integer, enforcing explicit casting\nstruct Number {\n    \n    uint32_t value = {};\n    \n    explicit Number(unsigned long long int v) : value(__dredd_replace_expr_unsigned_int(static_cast<uint32_t>(__dredd_replace_expr_unsigned_long_long_lvalue(v, 0)), 2)) {}\n\n};\n\nusing u32 = Number;\n\ninline u32 operator\"\"_u(unsigned long long int value) {\n    if (!__dredd_enabled_mutation(12)) { return u32(__dredd_replace_expr_unsigned_long_long(static_cast<uint32_t>(__dredd_replace_expr_unsigned_long_long_lvalue(value, 6)), 8)); }\n}\n\nint main() {\n    \n    u32 foo = 1_u;\n\n    if (!__dredd_enabled_mutation(15)) { return __dredd_replace_expr_int_zero(0, 13); }\n}\n"
    noopt := "// DREDD PRELUDE START\n// If this has been inserted at an inappropriate place in a source file,\n// declare a placeholder function with the following signature to\n// mandate where the prelude should be placed:\n//\n// void __dredd_prelude_start();\n//\n#include <atomic>\n#include <cinttypes>\n#include <cstddef>\n#include <fstream>\n#include <functional>\n#include <sstream>\n#include <string>\n\n\n#ifdef _MSC_VER\n#define thread_local __declspec(thread)\n#elif __APPLE__\n#define thread_local __thread\n#endif\n\nstatic thread_local bool __dredd_some_mutation_enabled = true;\nstatic bool __dredd_enabled_mutation(int local_mutation_id) {\n  static thread_local bool initialized = false;\n  static thread_local uint64_t enabled_bitset[1];\n  if (!initialized) {\n    bool some_mutation_enabled = false;\n    const char* dredd_environment_variable = std::getenv(\"DREDD_ENABLED_MUTATION\");\n    if (dredd_environment_variable != nullptr) {\n      std::string contents(dredd_environment_variable);\n      while (true) {\n        size_t pos = contents.find(\",\");\n        std::string token = (pos == std::string::npos ? contents : contents.substr(0, pos));\n        if (!token.empty()) {\n          int value = std::stoi(token);\n          int local_value = value - 0;\n          if (local_value >= 0 && local_value < 40) {\n            enabled_bitset[local_value / 64] |= (static_cast<uint64_t>(1) << (local_value % 64));\n            some_mutation_enabled = true;\n          }\n        }\n        if (pos == std::string::npos) {\n          break;\n        }\n        contents.erase(0, pos + 1);\n      }\n    }\n    initialized = true;\n    __dredd_some_mutation_enabled = some_mutation_enabled;\n  }\n  return (enabled_bitset[local_mutation_id / 64] & (static_cast<uint64_t>(1) << (local_mutation_id % 64))) != 0;\n}\n\nstatic unsigned long long __dredd_replace_expr_unsigned_long_long_lvalue(unsigned long long& arg, int local_mutation_id) {\n  if (!__dredd_some_mutation_enabled) return arg;\n  if (__dredd_enabled_mutation(local_mutation_id + 0)) return ++(arg);\n  if (__dredd_enabled_mutation(local_mutation_id + 1)) return --(arg);\n  return arg;\n}\n\nstatic unsigned long long __dredd_replace_expr_unsigned_long_long(unsigned long long arg, int local_mutation_id) {\n  if (!__dredd_some_mutation_enabled) return arg;\n  if (__dredd_enabled_mutation(local_mutation_id + 0)) return !(arg);\n  if (__dredd_enabled_mutation(local_mutation_id + 1)) return ~(arg);\n  if (__dredd_enabled_mutation(local_mutation_id + 2)) return 0;\n  if (__dredd_enabled_mutation(local_mutation_id + 3)) return 1;\n  return arg;\n}\n\nstatic unsigned int __dredd_replace_expr_unsigned_int(unsigned int arg, int local_mutation_id) {\n  if (!__dredd_some_mutation_enabled) return arg;\n  if (__dredd_enabled_mutation(local_mutation_id + 0)) return !(arg);\n  if (__dredd_enabled_mutation(local_mutation_id + 1)) return ~(arg);\n  if (__dredd_enabled_mutation(local_mutation_id + 2)) return 0;\n  if (__dredd_enabled_mutation(local_mutation_id + 3)) return 1;\n  return arg;\n}\n\nstatic int __dredd_replace_expr_int(int arg, int local_mutation_id) {\n  if (!__dredd_some_mutation_enabled) return arg;\n  if (__dredd_enabled_mutation(local_mutation_id + 0)) return !(arg);\n  if (__dredd_enabled_mutation(local_mutation_id + 1)) return ~(arg);\n  if (__dredd_enabled_mutation(local_mutation_id + 2)) return -(arg);\n  if (__dredd_enabled_mutation(local_mutation_id + 3)) return 0;\n  if (__dredd_enabled_mutation(local_mutation_id + 4)) return 1;\n  if (__dredd_enabled_mutation(local_mutation_id + 5)) return -1;\n  return arg;\n}\n\n#include <cstdint>\n\n// Number wraps integer, enforcing explicit casting\nstruct Number {\n    \n    uint32_t value = {};\n    \n    explicit Number(unsigned long long int v) : value(__dredd_replace_expr_unsigned_int(static_cast<uint32_t>(__dredd_replace_expr_unsigned_int(__dredd_replace_expr_unsigned_long_long(__dredd_replace_expr_unsigned_long_long_lvalue(v, 0), 2), 6)), 10)) {}\n\n};\n\nusing u32 = Number;\n\ninline u32 operator\"\"_u(unsigned long long int value) {\n    if (!__dredd_enabled_mutation(32)) { return u32(__dredd_replace_expr_unsigned_long_long(__dredd_replace_expr_unsigned_int(static_cast<uint32_t>(__dredd_replace_expr_unsigned_int(__dredd_replace_expr_unsigned_long_long(__dredd_replace_expr_unsigned_long_long_lvalue(value, 14), 16), 20)), 24), 28)); }\n}\n\nint main() {\n    \n    u32 foo = 1_u;\n\n    if (!__dredd_enabled_mutation(39)) { return __dredd_replace_expr_int(0, 33); }\n}\n" }

#guard user_defined_literals_cc.ok

end Dredd.Tests
