/-
What the query script should say.
-/
import Verif.Model.Sites
import Verif.Model.Text

namespace Dredd

/-- Offset `n` of the text is in line `l` and column `c`, both counted from 1: before it there are `l - 1`
complete lines and `c - 1` characters of the next one. -/
def LineColumn (src : Text) (n l c : Nat) : Prop :=
  ∃ u v, src.take n = u ++ v ∧ (u = [] ∨ u.getLast? = some '\n') ∧ '\n' ∉ v ∧
    l = u.count '\n' + 1 ∧ c = v.length + 1

/-- How a mutation is called. -/
def Mutation.title : Mutation → Text
  | .stmt _ => t!"Remove statement"
  | .expr _ => t!"Replace expression"
  | .un _ => t!"Replace unary operator expression"
  | .bin _ => t!"Replace binary operator expression"

/-- How the text that is mutated is called. -/
def Mutation.label : Mutation → Text
  | .stmt _ => t!"This is the removed statement"
  | .expr _ => t!"Original expression"
  | .un _ => t!"Original unary operator expression"
  | .bin _ => t!"Original binary operator expression"

/-- The message for a mutant: what it is, in which file and lines, the original text, and what replaces
it. -/
def Mutation.message (m : Mutation) (file : Text) (l c l' c' : Nat) (original : Text)
    (replacement : Option Text) : Text :=
  m.title ++ t!" at " ++ file ++ t!", " ++ natDec l ++ t!":" ++ natDec c ++ t!"--" ++ natDec l' ++ t!":" ++
  natDec c' ++ t!"\n\n" ++ m.label ++ t!":\n\n" ++ original ++ t!"\n" ++
  match replacement with
  | none => []
  | some t => t!"\nReplacement expression:\n\n" ++ t ++ t!"\n\n"

end Dredd
