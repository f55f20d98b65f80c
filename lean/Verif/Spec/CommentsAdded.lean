/-
Comments added to a text (C74).
-/
import Verif.Spec.Lex

namespace Dredd

/-- The second text is the first with comments `/* … */` inserted. -/
inductive CommentsAdded : Text → Text → Prop
  | nil : CommentsAdded [] []
  | char (c : Char) {a b : Text} : CommentsAdded a b → CommentsAdded (c :: a) (c :: b)
  | comment (n : Text) {a b : Text} : '*' ∉ n → CommentsAdded a b →
      CommentsAdded a (t!"/*" ++ n ++ t!"*/" ++ b)

end Dredd
