/-
What the facts in a syntax tree that come from the text say about the text.
-/
import Verif.Model.TextFacts
import Verif.Model.StmtEnd
import Verif.Model.Analyse
import Verif.Spec.Eligible

namespace Dredd

/-- The facts in a syntax tree that come from the text: whether a letter, digit or underscore
precedes an expression (mutation_replace_expr.cc 627-628), and what follows an item of a block
(mutation_remove_stmt.cc 61-97, 124). -/
structure TextRead (f : ParsedFile) : Prop where
  before : ∀ p above s ks e sp, Place f.ast p above (.stmt s ks) → s.kind = .expr e →
    s.range = some sp → e.precIdent = precedingIsIdent f.src sp.b
  behind : ∀ p above s ks sp, Place f.ast p above (.stmt s ks) → ItemOfBlock above →
    s.range = some sp → s.extEnd = sp.e + (stmtEnd (f.src.drop sp.e)).len ∧
      s.extComment = (stmtEnd (f.src.drop sp.e)).comment ∧
      s.extSemi = (stmtEnd (f.src.drop sp.e)).semi ∧
      s.nextHash = (stmtEnd (f.src.drop sp.e)).hash

/-- No line ends with a backslash, possibly followed by blanks; `esc`: the last character that is not
blank was a backslash. -/
def noSplice (esc : Bool) : Text → Bool
  | [] => true
  | c :: cs =>
    if c = '\n' then !esc && noSplice false cs
    else noSplice (if isBlankChar c then esc else c == '\\') cs

/-- A text without vertical tabs, form feeds and lines that go on in the next. -/
def PlainLines (src : Text) : Prop := '\x0b' ∉ src ∧ '\x0c' ∉ src ∧ noSplice false src = true

end Dredd
