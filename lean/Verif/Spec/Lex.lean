/-
Specification of the lexical structure of C and C++ texts (C58): a text is split, from
left to right, into white space, comments and tokens, each as long as possible.
Simplified: line continuations, raw strings, trigraphs and digit separators are not
treated specially, an encoding prefix (`L"x"`) is a token of its own, and preprocessor
directives are read as other text.
-/
import Verif.Model.TransUnit
import Verif.Spec.Align
import Verif.Spec.Tree

namespace Dredd

/-- Letters, digits and the underscore. -/
def wordChar (c : Char) : Bool := c.isAlphanum || c == '_'

/-- The punctuators of more than one character (and `..`, which is not one but the beginning
of one). -/
def longPuncts : List Text :=
  [t!"->", t!"++", t!"--", t!"<<", t!">>", t!"<=", t!">=", t!"==", t!"!=", t!"&&", t!"||", t!"+=",
   t!"-=", t!"*=", t!"/=", t!"%=", t!"&=", t!"|=", t!"^=", t!"<<=", t!">>=", t!"..", t!"...", t!"::",
   t!"##", t!".*", t!"->*", t!"<=>", t!"<:", t!":>", t!"<%", t!"%>", t!"%:"]

/-- What is being read.
* `white` – a character of white space.
* `word` – an identifier, a keyword, or the suffix of a literal.
* `number e` – a number; `e`: the last character was the letter of an exponent.
* `punct u` – the punctuator `u`.
* `line` – a comment up to the end of the line.
* `block star` – a comment `/* …`; `star`: the last character was `*`.
* `comment` – a complete comment `/* … */`.
* `quote q esc` – a character or string literal that began with `q`; `esc`: the last
  character was an escaping backslash.
* `literal` – a complete character or string literal. -/
inductive Lexing
  | white
  | word
  | number (e : Bool)
  | punct (u : Text)
  | line
  | block (star : Bool)
  | comment
  | quote (q : Char) (esc : Bool)
  | literal
deriving DecidableEq, Repr

/-- The first character. -/
def Lexing.start (c : Char) : Lexing :=
  if c.isWhitespace then .white
  else if c.isDigit then .number false
  else if wordChar c then .word
  else if c == '"' || c == '\'' then .quote c false
  else .punct [c]

/-- The next character, if it belongs to what is being read. -/
def Lexing.more : Lexing → Char → Option Lexing
  | .white, _ => none
  | .word, c => if wordChar c then some .word else none
  | .number e, c =>
    if wordChar c || c == '.' then some (.number (c == 'e' || c == 'E' || c == 'p' || c == 'P'))
    else if e && (c == '+' || c == '-') then some (.number false)
    else none
  | .punct u, c =>
    if u == t!"/" && c == '/' then some .line
    else if u == t!"/" && c == '*' then some (.block false)
    else if u == t!"." && c.isDigit then some (.number false)
    else if (u ++ [c]) ∈ longPuncts then some (.punct (u ++ [c]))
    else none
  | .line, c => if c == '\n' then none else some .line
  | .block star, c => if star && c == '/' then some .comment else some (.block (c == '*'))
  | .comment, _ => none
  | .quote q esc, c =>
    if esc then some (.quote q false)
    else if c == '\n' then none
    else if c == '\\' then some (.quote q true)
    else if c == q then some .literal
    else some (.quote q false)
  | .literal, c => if wordChar c then some .word else none

/-- A lexeme: what it is, and its text. -/
abbrev Lexeme := Lexing × Text

/-- The lexemes of a text of which `u` was read and found to be `s` so far. -/
def lexFrom (s : Lexing) (u : Text) : Text → List Lexeme
  | [] => [(s, u)]
  | c :: cs =>
    match s.more c with
    | some s' => lexFrom s' (u ++ [c]) cs
    | none => (s, u) :: lexFrom (.start c) [c] cs

/-- The lexemes of a text. -/
def lexemes : Text → List Lexeme
  | [] => []
  | c :: cs => lexFrom (.start c) [c] cs

/-- Neither white space nor a comment. -/
def Lexing.isToken : Lexing → Bool
  | .white | .line | .block _ | .comment => false
  | _ => true

/-- The tokens of a text. -/
def tokens (t : Text) : List Text := ((lexemes t).filter fun x => x.1.isToken).map (·.2)

#guard tokens t!"x+++ -1.5e-3;// a\nL\"a\\\"b\"s/* \" */>>=.5" ==
  [t!"x", t!"++", t!"+", t!"-", t!"1.5e-3", t!";", t!"L", t!"\"a\\\"b\"s", t!">>=", t!".5"]

/-- Lexemes with their offsets; `o` is the offset of the first. -/
def placed (o : Nat) : List Lexeme → List (Nat × Lexeme)
  | [] => []
  | x :: xs => (o, x) :: placed (o + x.2.length) xs

/-- The lexemes of a text with their offsets. -/
def places (t : Text) : List (Nat × Lexeme) := placed 0 (lexemes t)

/-! ### Comparison of two texts by lexemes -/

/-- A step of the comparison of the lexemes of two texts: a lexeme that is in both, one that is
gone, or new text. -/
inductive LItem
  | keep (x : Lexeme)
  | del (x : Lexeme)
  | ins (t : Text)

/-- The lexemes of the original. -/
def LItem.old : List LItem → List Lexeme
  | [] => []
  | .keep x :: r | .del x :: r => x :: LItem.old r
  | .ins _ :: r => LItem.old r

/-- The lexemes of the new text: those that are kept, and those of the inserted texts. -/
def LItem.new : List LItem → List Lexeme
  | [] => []
  | .keep x :: r => x :: LItem.new r
  | .del _ :: r => LItem.new r
  | .ins t :: r => lexemes t ++ LItem.new r

/-- The lexemes that are gone, with their offsets; `o` is the offset of the first step. -/
def LItem.gone (o : Nat) : List LItem → List (Nat × Lexeme)
  | [] => []
  | .keep x :: r => LItem.gone (o + x.2.length) r
  | .del x :: r => (o, x) :: LItem.gone (o + x.2.length) r
  | .ins _ :: r => LItem.gone o r

/-! ### Where tokens begin and end -/

/-- A token begins at `p`. -/
def Starts (src : Text) (p : Nat) : Prop := ∃ x, (p, x) ∈ places src ∧ x.1.isToken = true

/-- The lexeme `x` ends at `p`. -/
def EndsAt (src : Text) (p : Nat) (x : Lexeme) : Prop :=
  ∃ q, (q, x) ∈ places src ∧ q + x.2.length = p

/-- A token, and not one that is broken off (a literal without closing quote). -/
def Lexing.isWhole : Lexing → Bool
  | .quote _ _ => false
  | s => s.isToken

/-- A token ends at `p`. -/
def Ends (src : Text) (p : Nat) : Prop := ∃ x, EndsAt src p x ∧ x.1.isWhole = true

/-- A word, number or literal: it would become longer if a word came next to it. -/
def Lexing.isWord : Lexing → Bool
  | .word | .number _ | .literal => true
  | _ => false

/-- A word, number or literal ends at `p`. -/
def EndsWord (src : Text) (p : Nat) : Prop := ∃ x, EndsAt src p x ∧ x.1.isWord = true

/-- The offsets at which the expressions and statements that a mutation deals with begin. -/
def Mutation.opensAt : Mutation → List Nat
  | .bin s => [s.lhsSpan.b, s.rhsSpan.b, s.span.b]
  | .un s => [s.span.b]
  | .expr s => [s.span.b]
  | .stmt s => [s.span.b]

/-- The offsets at which the expressions that a mutation deals with end. -/
def Mutation.closesAt : Mutation → List Nat
  | .bin s => [s.lhsSpan.e, s.rhsSpan.e, s.span.e]
  | .un s => [s.span.e]
  | .expr s => [s.span.e]
  | .stmt _ => []

/-- The constant `k` is made of tokens that nothing else touches, and a number in its place
stands apart from its neighbours. -/
structure ConstAlone (f : SourceFile) (k : ConstRewrite) : Prop where
  nonempty : k.span.b < k.span.e
  opens : Starts f.src k.span.b
  closes : Ends f.src k.span.e
  before : ∀ x, EndsAt f.src k.span.b x → x.1.isWord = false ∧ x.2 ≠ t!"."
  after : ∀ x, (k.span.e, x) ∈ places f.src → ∀ c cs, x.2 = c :: cs → wordChar c = false ∧ c ≠ '.'
  muts : ∀ m ∈ f.tree.post,
    (∀ p ∈ m.opensAt, p ≤ k.span.b ∨ k.span.e < p) ∧
    (∀ p ∈ m.closesAt, p ≤ k.span.b ∨ k.span.e ≤ p) ∧
    (∀ sp, m.symbol f.lang = some sp → sp.e ≤ k.span.b ∨ k.span.e ≤ sp.b) ∧
    (∀ s, m = .stmt s → s.extEnd ≤ k.span.b ∨ k.span.e ≤ s.extEnd)
  prelude : f.preludeOff.getD 0 ≤ k.span.b ∨ k.span.e < f.preludeOff.getD 0
  others : ∀ k' ∈ f.consts, k' = k ∨ k'.span.e < k.span.b ∨ k.span.e < k'.span.b

/-- What is mutated is made of tokens (C58).
* `opens`, `closes` – expressions and statements begin and end with a token.
* `stmts` – so does the extent of a removed statement, unless it ends with a comment.
* `symbols` – the symbol of an operator is one token.
* `unary` – it is the first or the last token of a unary expression; in the latter case nothing
  begins just behind.
* `consts` – see `ConstAlone`.
* `prelude` – the prelude is put before a token, and that token does not follow a slash.
* `words` – if a word, number or literal comes just before something that is mutated, this is
  a mutated expression for which it is known. -/
structure Tokenised (f : SourceFile) : Prop where
  opens : ∀ m ∈ f.tree.post, ∀ p ∈ m.opensAt, Starts f.src p
  closes : ∀ m ∈ f.tree.post, ∀ p ∈ m.closesAt, Ends f.src p
  stmts : ∀ s, Mutation.stmt s ∈ f.tree.post → Ends f.src s.extEnd ∨
    (s.extComment = true ∧ s.extSemi = false ∧
      ∃ x, EndsAt f.src s.extEnd x ∧ (x.1 = .line ∨ x.1 = .comment))
  symbols : ∀ m ∈ f.tree.post, ∀ sp, m.symbol f.lang = some sp →
    ∃ x, (sp.b, x) ∈ places f.src ∧ x.1.isToken = true ∧ sp.e = sp.b + x.2.length
  unary : ∀ s, Mutation.un s ∈ f.tree.post → ∀ q, s.opOff = some q → q = s.span.b ∨
    (q + s.op.str.length = s.span.e ∧ (∀ m ∈ f.tree.post, s.span.e ∉ m.opensAt) ∧
      f.preludeOff.getD 0 ≠ s.span.e)
  consts : ∀ k ∈ f.consts, ConstAlone f k
  prelude : f.preludeOff.getD 0 = 0 ∨ (Starts f.src (f.preludeOff.getD 0) ∧
    ∀ x, EndsAt f.src (f.preludeOff.getD 0) x → x.2 ≠ t!"/")
  words : ∀ xs m ys, f.tree.post = xs ++ m :: ys → ∀ p ∈ m.opensAt, EndsWord f.src p →
    ∃ s, Mutation.expr s ∈ m :: ys ∧ s.span.b = p ∧ s.precIdent = true

/-- The name of the syntax tree node, which is shown in a comment if asked for. -/
def Mutation.node : Mutation → Text
  | .bin s => s.node
  | .un s => s.node
  | .expr s => s.node
  | .stmt s => s.node

/-- The nodes that are named in comments have names that do not end the comment. -/
def NodesOk (o : Options) (f : SourceFile) : Prop :=
  o.showAst = true → ∀ m ∈ f.tree.post, '*' ∉ m.node

/-- The offset is in the symbol of an operator that is mutated. -/
def InSymbol (f : SourceFile) (p : Nat) : Prop :=
  ∃ m ∈ f.tree.post, ∃ sp, m.symbol f.lang = some sp ∧ sp.has p

/-- The offset is in a constant that is replaced. -/
def InConst (f : SourceFile) (p : Nat) : Prop := ∃ k ∈ f.consts, k.span.has p

end Dredd
