/-
Specification for C43: where comments are in a text, and what is visible outside of
them.  The text is read one character at a time.
-/
import Verif.Model.Text

namespace Dredd

/-- Where the reader is: in code, in code behind a slash, in a line comment (`esc`:
the last character of the line that is not blank is a backslash), in a block comment,
or in a block comment behind a star. -/
inductive Mode
  | code
  | slash
  | line (esc : Bool)
  | block
  | star
deriving DecidableEq, Repr

/-- Reading one character. -/
def Mode.step : Mode → Char → Mode
  | .code, c => if c = '/' then .slash else .code
  | .slash, c => if c = '/' then .line false else if c = '*' then .block else .code
  | .line esc, c =>
    if c = '\n' then (if esc then .line false else .code)
    else if c = ' ' ∨ c = '\t' ∨ c = '\x0b' ∨ c = '\x0c' then .line esc
    else .line (c == '\\')
  | .block, c => if c = '*' then .star else .block
  | .star, c => if c = '/' then .code else if c = '*' then .star else .block

/-- Reading a text. -/
def Mode.read (m : Mode) (t : Text) : Mode := t.foldl Mode.step m

/-- Outside of comments. -/
def Mode.outside : Mode → Bool
  | .code | .slash => true
  | _ => false

/-- The characters outside of comments, as they are read.  A slash is known to be one
only when the next character is read. -/
def Mode.emits (m : Mode) : Text → Text
  | [] => []
  | c :: cs =>
    (match m, m.step c with
      | .code, .code => [c]
      | .slash, .code => ['/', c]
      | _, _ => []) ++ (m.step c).emits cs

/-- The text without its comments. -/
def Mode.visible (m : Mode) (t : Text) : Text :=
  m.emits t ++ if m.read t = .slash then ['/'] else []

/-- White space. -/
def isWhite (c : Char) : Bool :=
  c = ' ' ∨ c = '\t' ∨ c = '\n' ∨ c = '\x0b' ∨ c = '\x0c' ∨ c = '\r'

/-- The text without comments and white space. -/
def codeOf (t : Text) : Text := (Mode.code.visible t).filter fun c => !isWhite c

/-- What may stand between a statement and its semicolon: white space, comments, and
preprocessor directives. -/
inductive Between
  /-- a character of white space -/
  | space (c : Char)
  /-- a line comment with its newline -/
  | line (t : Text)
  /-- a block comment -/
  | block (t : Text)
  /-- a directive with its newline -/
  | directive (t : Text)
deriving DecidableEq, Repr

/-- Its text. -/
def Between.text : Between → Text
  | .space c => [c]
  | .line t => t!"//" ++ t ++ t!"\n"
  | .block t => t!"/*" ++ t ++ t!"*/"
  | .directive t => t!"#" ++ t ++ t!"\n"

/-- Conditions on its parts: a comment ends where it says it ends and not before, and
a directive does not begin with `##`. -/
def Between.ok : Between → Prop
  | .space c => isWhite c
  | .line t => (∀ a, a <+: t → (Mode.line false).read a ≠ .code) ∧
      (Mode.line false).read t = .line false
  | .block t => ∀ a, a <+: t → Mode.block.read a ≠ .code
  | .directive t => t.head? ≠ some '#'

end Dredd
