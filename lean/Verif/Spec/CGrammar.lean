/-
A grammar of a part of C and C++ (C62): expressions with all operators, statements, declarations
of variables and definitions of functions without parameters.  It meets what C62 asks of a
grammar.  Simplified: keywords are not kept apart from names, a type is a basic type.
-/
import Verif.Spec.Grammar

namespace Dredd

/-- The rules; `cpp` says whether those of C++ are among them. -/
inductive CRule (cpp : Bool) : Phrase → List Sym → Prop
  | word (x : Text) : x ≠ [] → x.all wordChar = true → CRule cpp (.expr 17) [.tok x]
  | paren : CRule cpp (.expr 17) [.tok t!"(", .nt (.expr 0), .tok t!")"]
  | call (n : Nat) : CRule cpp (.expr 16) ([.nt (.expr 16), .tok t!"("] ++
      commaSep (.tok t!",") (List.replicate n (.nt (.expr 1))) ++ [.tok t!")"])
  | index : CRule cpp (.expr 16) [.nt (.expr 16), .tok t!"[", .nt (.expr 0), .tok t!"]"]
  | member (op x : Text) : op ∈ [t!".", t!"->"] →
      CRule cpp (.expr 16) [.nt (.expr 16), .tok op, .tok x]
  | post (op : Text) : op ∈ [t!"++", t!"--"] → CRule cpp (.expr 16) [.nt (.expr 16), .tok op]
  | pre (op : Text) : op ∈ [t!"++", t!"--", t!"&", t!"*", t!"+", t!"-", t!"~", t!"!"] →
      CRule cpp (.expr 15) [.tok op, .nt (.expr 14)]
  | binary (op : BOp) : CRule cpp (.expr op.levels.1)
      [.nt (.expr op.levels.2.1), .tok op.str, .nt (.expr op.levels.2.2)]
  | cond : CRule cpp (.expr 2)
      [.nt (.expr 3), .tok t!"?", .nt (.expr 0), .tok t!":", .nt (.expr 1)]
  | type (ts : List Text) : (readDTy ts).isSome → CRule cpp .type (ts.map .tok)
  | cast : cpp = true → CRule cpp (.expr 16) [.tok t!"static_cast", .tok t!"<", .nt .type, .tok t!">",
      .tok t!"(", .nt (.expr 0), .tok t!")"]
  | lambda : cpp = true → CRule cpp (.expr 17) [.tok t!"[", .tok t!"&", .tok t!"]", .tok t!"(",
      .tok t!")", .tok t!"->", .nt .type, .nt .closed]
  | semi : CRule cpp .closed [.nt .unfinished, .tok t!";"]
  | null : CRule cpp .closed [.tok t!";"]
  | block (n : Nat) : CRule cpp .closed ([.tok t!"{"] ++ List.replicate n (.nt .item) ++ [.tok t!"}"])
  | ifs : CRule cpp .stmt [.tok t!"if", .tok t!"(", .nt (.expr 0), .tok t!")", .nt .stmt]
  | ifElse (p : Phrase) : p ∈ [.closed, .stmt] → CRule cpp p
      [.tok t!"if", .tok t!"(", .nt (.expr 0), .tok t!")", .nt .closed, .tok t!"else", .nt p]
  | while_ (p : Phrase) : p ∈ [.closed, .stmt] → CRule cpp p
      [.tok t!"while", .tok t!"(", .nt (.expr 0), .tok t!")", .nt p]
  | ret : CRule cpp .unfinished [.tok t!"return", .nt (.expr 0)]
  | leave (x : Text) : x ∈ [t!"return", t!"break", t!"continue"] → CRule cpp .unfinished [.tok x]
  | decl (x : Text) : CRule cpp .item [.nt .type, .tok x, .tok t!"=", .nt (.expr 1), .tok t!";"]
  | label : CRule cpp .item [.tok t!"case", .nt (.expr 2), .tok t!":"]
  | function (x : Text) : CRule cpp (.other t!"function")
      [.tok t!"void", .tok x, .tok t!"(", .tok t!")", .nt .closed]

def cGrammar (cpp : Bool) : Grammar := ⟨CRule cpp⟩

end Dredd
