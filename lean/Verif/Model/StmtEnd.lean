/-
How far a statement to be removed extends (mutation_remove_stmt.cc 61-97), and
whether a preprocessor directive follows (163-176).

`clang::tooling::maybeExtendRange` and `clang::Lexer::getRawToken` are not part of
the repository.  Both look at the raw token that follows a position, with white space
skipped and comments kept as tokens; this file models that token as far as the code
distinguishes tokens: comment, semicolon, hash, or something else.  Lines are assumed
to end in a single newline character, and a backslash-newline between tokens counts
as something else.
-/
import Verif.Model.Apply

namespace Dredd

/-- The kinds of raw tokens that matter (`clang::tok::comment`, `semi`, `hash`;
mutation_remove_stmt.cc 75, 92, 175). -/
inductive RawKind
  | comment
  | semi
  | hash
  | other
deriving DecidableEq, Repr

/-- White space as skipped by `getRawToken` with `IgnoreWhiteSpace`
(mutation_remove_stmt.cc 171-174). -/
def isSpaceChar (c : Char) : Bool :=
  c == ' ' || c == '\t' || c == '\n' || c == '\x0b' || c == '\x0c' || c == '\r'

/-- White space that does not end a line. (part of the lexer used in
mutation_remove_stmt.cc 74-75.) -/
def isBlankChar (c : Char) : Bool := c == ' ' || c == '\t' || c == '\x0b' || c == '\x0c'

/-- Number of characters of a line comment after its `//`, not including the newline
that ends it.  A line that ends in a backslash, possibly followed by blanks, continues
on the next line; `esc` says that the last character that is not blank was a
backslash. (part of the lexer used in mutation_remove_stmt.cc 74-75.) -/
def lineCommentLen (esc : Bool) : Text → Nat
  | [] => 0
  | c :: cs =>
    if c = '\n' then (if esc then 1 + lineCommentLen false cs else 0)
    else 1 + lineCommentLen (if isBlankChar c then esc else c == '\\') cs

/-- Number of characters of a block comment after its opening characters, if it is
closed. (part of the lexer used in mutation_remove_stmt.cc 74-75.) -/
def blockCommentLen : Text → Option Nat
  | [] => none
  | c :: cs =>
    if c = '*' ∧ cs.head? = some '/' then some 2
    else (blockCommentLen cs).map (· + 1)

/-- The raw token at the beginning of the text: its kind and its length. (the
token looked at in mutation_remove_stmt.cc 75, 92, 175.) -/
def rawHere : Text → RawKind × Nat
  | '/' :: '/' :: cs => (.comment, 2 + lineCommentLen false cs)
  | '/' :: '*' :: cs =>
    match blockCommentLen cs with
    | some n => (.comment, 2 + n)
    | none => (.other, 0)
  | ';' :: _ => (.semi, 1)
  | '#' :: '#' :: _ => (.other, 0)
  | '#' :: _ => (.hash, 1)
  | _ => (.other, 0)

/-- The raw token after white space: its kind, and the number of characters up to its
end. (`getRawToken`, mutation_remove_stmt.cc 171-174, also used by
`maybeExtendRange`, 74-75.) -/
def rawNext (t : Text) : RawKind × Nat :=
  let r := rawHere (t.dropWhile isSpaceChar)
  (r.1, (t.takeWhile isSpaceChar).length + r.2)

/-- The loop that extends the range over comments (mutation_remove_stmt.cc 70-86):
the number of characters by which it is extended, and whether it is extended.  `fuel`
bounds the number of iterations; the length of the text is enough since every
comment takes at least two characters. -/
def extendComments : (fuel : Nat) → Text → Nat × Bool
  | 0, _ => (0, false)
  | fuel + 1, t =>
    match rawNext t with
    | (.comment, n) =>
      let r := extendComments fuel (t.drop n)
      (n + r.1, true)
    | _ => (0, false)

/-- What is found after a statement (mutation_remove_stmt.cc 61-97, 163-176). -/
structure StmtEnd where
  /-- number of characters by which the range of the statement is extended -/
  len : Nat
  /-- `is_extended_with_comment` -/
  comment : Bool
  /-- `is_extended_with_semi` -/
  semi : Bool
  /-- `IsNextTokenHash` for the extended range -/
  hash : Bool
deriving DecidableEq, Repr

/-- The range of a statement is extended over comments and then over a semicolon
(mutation_remove_stmt.cc 61-97); `t` is the text after the statement. -/
def stmtEnd (t : Text) : StmtEnd :=
  let (n, comment) := extendComments t.length t
  let (semi, m) := match rawNext (t.drop n) with
    | (.semi, m) => (true, n + m)
    | _ => (false, n)
  { len := m, comment := comment, semi := semi
    hash := (rawNext (t.drop m)).1 == .hash }

/-- The record of a statement at `span` of a file (mutation_remove_stmt.cc
56-97, 124). -/
def StmtSite.read (src : Text) (span : Span) (info : RangeInfo) (node : Text) : StmtSite :=
  let e := stmtEnd (src.drop span.e)
  { span := span, extEnd := span.e + e.len, extComment := e.comment, extSemi := e.semi
    nextHash := e.hash, info := info, node := node }

end Dredd
