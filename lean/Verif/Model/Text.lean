/-
Text: everything the tool writes is modelled as a list of characters.
This file has no counterpart in /repo; it only fixes the representation of
`std::string` (used throughout /repo/src/libdredd/src) and of
`std::to_string`/`operator<<` on integers.
-/
import Lean.Parser.Term

namespace Dredd

/-- Representation of `std::string`. (for instance mutation.h 56.) -/
abbrev Text := List Char

open Lean in
/-- `t!"abc"` is the list `['a', 'b', 'c']` (expanded at parse time, so the
kernel sees a plain list of character literals). -/
macro:max "t!" s:str : term => do
  let cs := s.getString.toList.toArray.map fun c => Syntax.mkCharLit c
  `([$cs,*])

/-- `std::to_string` on a non-negative `int` (for instance
mutation_remove_stmt.cc 115 and 122): decimal digits. -/
def natDec (n : Nat) : Text := Nat.toDigits 10 n

/-- `std::to_string`/`operator<<` on an `int`. (for instance mutate_ast_consumer.cc
308.) -/
def intDec : Int → Text
  | .ofNat n => natDec n
  | .negSucc n => '-' :: natDec (n + 1)

/-- Fidelity tests only. (compares with test/single_file/*.expected; no counterpart
in the tool, see mutation.h 56 for the strings.) -/
def Text.toStr (t : Text) : String := String.ofList t

end Dredd
