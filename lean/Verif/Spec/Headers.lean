/-
What the headers of the standard libraries declare, as far as the standards promise it (C11 clause
7, C++17 clauses 20 to 33), and which names a prelude uses, declares and redefines.
-/
import Verif.Spec.PreludeRead

namespace Dredd.PreludeRead

/-- Keywords (C11 6.4.1; C++17 5.11). -/
def keywords (cpp : Bool) : List Text :=
  if cpp then
    [t!"alignas", t!"alignof", t!"asm", t!"auto", t!"bool", t!"break", t!"case", t!"catch", t!"char",
     t!"char16_t", t!"char32_t", t!"class", t!"const", t!"constexpr", t!"const_cast", t!"continue",
     t!"decltype", t!"default", t!"delete", t!"do", t!"double", t!"dynamic_cast", t!"else", t!"enum",
     t!"explicit", t!"export", t!"extern", t!"false", t!"float", t!"for", t!"friend", t!"goto", t!"if",
     t!"inline", t!"int", t!"long", t!"mutable", t!"namespace", t!"new", t!"noexcept", t!"nullptr",
     t!"operator", t!"private", t!"protected", t!"public", t!"register", t!"reinterpret_cast",
     t!"return", t!"short", t!"signed", t!"sizeof", t!"static", t!"static_assert", t!"static_cast",
     t!"struct", t!"switch", t!"template", t!"this", t!"thread_local", t!"throw", t!"true", t!"try",
     t!"typedef", t!"typeid", t!"typename", t!"union", t!"unsigned", t!"using", t!"virtual", t!"void",
     t!"volatile", t!"wchar_t", t!"while"]
  else
    [t!"auto", t!"break", t!"case", t!"char", t!"const", t!"continue", t!"default", t!"do", t!"double",
     t!"else", t!"enum", t!"extern", t!"float", t!"for", t!"goto", t!"if", t!"inline", t!"int",
     t!"long", t!"register", t!"restrict", t!"return", t!"short", t!"signed", t!"sizeof", t!"static",
     t!"struct", t!"switch", t!"typedef", t!"union", t!"unsigned", t!"void", t!"volatile", t!"while",
     t!"_Alignas", t!"_Alignof", t!"_Atomic", t!"_Bool", t!"_Complex", t!"_Generic", t!"_Imaginary",
     t!"_Noreturn", t!"_Static_assert", t!"_Thread_local"]

/-- Names that a header declares, qualified by `std` if they are in this namespace.  Only names that
matter here are listed; a header of C++ does not have to declare what another one does, and does not
have to declare in the global namespace what it declares in `std` (C++17 20.5.1.2). -/
def declaredBy : List (Text × List (List Text)) :=
  [(t!"inttypes.h", [[t!"int64_t"], [t!"uint64_t"], [t!"intmax_t"], [t!"strtoimax"]]),
   (t!"stdatomic.h", [[t!"atomic_bool"], [t!"atomic_int"], [t!"atomic_exchange"], [t!"atomic_load"],
     [t!"atomic_store"]]),
   (t!"stdbool.h", [[t!"bool"], [t!"true"], [t!"false"]]),
   (t!"stdio.h", [[t!"FILE"], [t!"NULL"], [t!"size_t"], [t!"fopen"], [t!"fclose"], [t!"fprintf"],
     [t!"printf"]]),
   (t!"stdlib.h", [[t!"NULL"], [t!"size_t"], [t!"getenv"], [t!"malloc"], [t!"free"], [t!"atoi"],
     [t!"strtol"]]),
   (t!"string.h", [[t!"NULL"], [t!"size_t"], [t!"strlen"], [t!"strcpy"], [t!"strtok"], [t!"strcmp"]]),
   (t!"threads.h", [[t!"thread_local"], [t!"thrd_t"], [t!"mtx_t"]]),
   (t!"stdint.h", [[t!"int64_t"], [t!"uint64_t"]]),
   (t!"stddef.h", [[t!"NULL"], [t!"size_t"]]),
   (t!"atomic", [[t!"std", t!"atomic"], [t!"std", t!"atomic_bool"]]),
   (t!"cinttypes", [[t!"std", t!"int64_t"], [t!"std", t!"uint64_t"]]),
   (t!"cstdint", [[t!"std", t!"int64_t"], [t!"std", t!"uint64_t"]]),
   (t!"cstddef", [[t!"std", t!"size_t"], [t!"std", t!"nullptr_t"]]),
   (t!"cstdlib", [[t!"std", t!"size_t"], [t!"std", t!"getenv"], [t!"std", t!"malloc"]]),
   (t!"fstream", [[t!"std", t!"ofstream"], [t!"std", t!"ifstream"], [t!"std", t!"ios_base"]]),
   (t!"functional", [[t!"std", t!"function"]]),
   (t!"sstream", [[t!"std", t!"stringstream"], [t!"std", t!"ios_base"]]),
   (t!"string", [[t!"std", t!"string"], [t!"std", t!"stoi"], [t!"std", t!"to_string"]])]

/-- Macros of the headers of C that stand for something else in a program that uses the word for
its own purposes. -/
def headerMacros : List (Text × List (Text × List Text)) :=
  [(t!"stdbool.h", [(t!"bool", [t!"_Bool"]), (t!"true", [t!"1"]), (t!"false", [t!"0"])]),
   (t!"threads.h", [(t!"thread_local", [t!"_Thread_local"])])]

/-- The names that are used, with at most two parts; `prev` is the symbol in front.  Members (behind a
dot) are left out. -/
def names (prev : Text) : List Tok → List (List Text)
  | [] => []
  | .word x :: ts =>
    if prev = t!"::" ∨ prev = t!"." ∨ prev = t!"->" then names [] ts
    else (x :: match ts with
        | .sym a :: .word y :: _ => if a = t!"::" then [y] else []
        | _ => []) :: names [] ts
  | .sym s :: ts => names s ts
  | _ :: ts => names [] ts

mutual
/-- The variables that a statement declares. -/
def PStmt.declares : PStmt → List Text
  | .decl _ _ x _ => [x]
  | .ctor _ _ x _ => [x]
  | .array _ _ x _ => [x]
  | .block ss => PStmt.declareAll ss
  | .ifThen _ s => s.declares
  | .while_ _ s => s.declares
  | .for_ i _ _ s => i.declares ++ s.declares
  | _ => []

/-- The same for several statements. -/
def PStmt.declareAll : List PStmt → List Text
  | [] => []
  | s :: ss => s.declares ++ PStmt.declareAll ss
end

/-- The names that are declared at file scope. -/
def PFun.fileNames (f : PFun) : List Text := PStmt.declareAll f.outer ++ [f.name]

/-- All names that are declared. -/
def PFun.ownNames (f : PFun) : List Text := f.fileNames ++ f.params ++ PStmt.declareAll f.body

/-- A text as the preprocessor leaves it, with its tokens and the declarations they are read as. -/
def readParts (cpp : Bool) (defined : Text → Bool) (t : Text) : Option (PP × List Tok × PFun) :=
  (preprocess defined t).bind fun p => (toks p.kept).bind fun ts =>
    (readFun (threadLocal cpp p) (4 * ts.length + 4) [] ts).map fun f => (p, ts, f)

/-- The name `x` means something: it is a keyword, a macro, declared in the program `f`, or declared
by a header. -/
def meant (cpp : Bool) (p : PP) (f : PFun) (x : List Text) : Bool :=
  (match x with
    | [w] => decide (w ∈ keywords cpp) || decide (w ∈ f.ownNames) || p.macros.any (·.1 = w)
    | _ => false) ||
  p.headers.any fun h => ((declaredBy.lookup h).getD []).contains x

/-- The names in a text that mean nothing. -/
def undeclared (cpp : Bool) (defined : Text → Bool) (t : Text) : Option (List (List Text)) :=
  (readParts cpp defined t).map fun (p, ts, f) => (names [] ts).filter fun x => !meant cpp p f x

/-- The macros that are defined after a text: its own, and those of the headers. -/
def macrosAfter (cpp : Bool) (defined : Text → Bool) (t : Text) : Option (List (Text × List Text)) :=
  (preprocess defined t).map fun p =>
    p.macros ++ if cpp then [] else p.headers.flatMap fun h => (headerMacros.lookup h).getD []

/-- Replacement of macros without parameters in a list of tokens. -/
def expand (ms : List (Text × List Text)) (ts : List Text) : List Text :=
  ts.flatMap fun t => (ms.lookup t).getD [t]

end Dredd.PreludeRead
