/-
What the code reads from the text before an expression (mutation_replace_expr.cc 41-57).

`SourceManager::getCharacterData` is not part of the repository.  Here it gives the character at an
offset of the file; before the beginning of a file there is none.  (Clang keeps the end of another buffer
there, which is no letter, digit or underscore.)  `std::isalnum` is taken in the "C" locale.
-/
import Verif.Model.Text

namespace Dredd

/-- `PrecedingCharacterIsIdentifierCharacter` for a range that begins at `off`
(mutation_replace_expr.cc 41-57). -/
def precedingIsIdent (src : Text) : (off : Nat) → Bool
  | 0 => false
  | n + 1 =>
    match src[n]? with
    | none => false
    | some c => c == '_' || c.isAlphanum

end Dredd
