/-
How a replacement that the query script shows should be read (C89): as the operator that is
applied, with the operands of the original expression.  The texts and the parentheses that the
script puts around operands do not occur here; trees say how a text is read.
-/
import Verif.Spec.CGrammar
import Verif.Spec.Action

namespace Dredd

/-- The rules for parentheses and operators. -/
structure Grammar.Ops (G : Grammar) : Prop where
  paren : G.rule (.expr 17) [.tok t!"(", .nt (.expr 0), .tok t!")"]
  pre : ∀ op ∈ [t!"++", t!"--", t!"-", t!"~", t!"!"], G.rule (.expr 15) [.tok op, .nt (.expr 14)]
  post : ∀ op ∈ [t!"++", t!"--"], G.rule (.expr 16) [.nt (.expr 16), .tok op]
  binary : ∀ op : BOp, G.rule (.expr op.levels.1)
    [.nt (.expr op.levels.2.1), .tok op.str, .nt (.expr op.levels.2.2)]

/-- The operators of C++ that are spelled with letters (C++17 [lex.digraph], macros of `iso646.h`
in C). -/
def BOp.words : List (BOp × Text) :=
  [(.land, t!"and"), (.lor, t!"or"), (.and, t!"bitand"), (.or, t!"bitor"), (.xor, t!"xor"),
   (.ne, t!"not_eq"), (.andAssign, t!"and_eq"), (.orAssign, t!"or_eq"), (.xorAssign, t!"xor_eq")]

/-- The grammar of a part of C++, in which operators may be spelled with letters. -/
def wordGrammar : Grammar :=
  ⟨fun p ss => CRule true p ss ∨ ∃ op w, (op, w) ∈ BOp.words ∧ p = .expr op.levels.1 ∧
    ss = [.nt (.expr op.levels.2.1), .tok w, .nt (.expr op.levels.2.2)]⟩

/-- Nothing that follows can become part of the last token. -/
def EndsWithToken (t : Text) : Prop :=
  ∃ s, lastLex t = some s ∧ s.isToken = true ∧ ∀ q e, s ≠ .quote q e

/-- The text is that of an expression, `x`. -/
structure IsExprText (G : Grammar) (t : Text) (x : Tree) : Prop where
  valid : x.Valid G
  expr : ∃ k ks, x = .node (.expr k) ks
  tokens : tokens t = x.yield
  ends : EndsWithToken t

/-- An operand, possibly in parentheses. -/
def Tree.Bracketed (x x' : Tree) : Prop := x' = x ∨ x' = .paren x

/-- `op x`. -/
def PrefixOf (op : Text) (x t : Tree) : Prop :=
  ∃ x', x.Bracketed x' ∧ t = .node (.expr 15) [.tok op, x']

/-- How the replacement for a unary operator expression with operand `x` should be read. -/
def UChange.ReadAs (x t : Tree) : UChange → Prop
  | .operand => t = x
  | .op o => if o.isPrefix then PrefixOf o.str x t
      else ∃ x', x.Bracketed x' ∧ t = .node (.expr 16) [x', .tok o.str]

/-- How the replacement for a binary operator expression should be read. -/
def BChange.ReadAs (x y t : Tree) : BChange → Prop
  | .lhs => t = x
  | .rhs => t = y
  | .op o => ∃ x' y', x.Bracketed x' ∧ y.Bracketed y' ∧
      t = .node (.expr o.levels.1) [x', .tok o.str, y']

/-- Characters of operators, brackets and separators. -/
def symbolChars : Text := t!"+-*/%<>=!&|^~?:,()[]{};#'\""

/-- An expression in whose text no such character occurs is a postfix expression. -/
def TightIfPlain (t : Text) (x : Tree) : Prop :=
  (∀ c ∈ t, c ∉ symbolChars) → ∃ k ks, x = .node (.expr k) ks ∧ 16 ≤ k

end Dredd
