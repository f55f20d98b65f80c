/-
Specification of syntax trees that lie over the tokens of their text (C58): nodes begin and end
with tokens.  Nothing in `LexedTree` mentions what is mutated; `WordsKnown` says that
a word only comes just before an expression that may be replaced as a whole.
-/
import Verif.Spec.Lex
import Verif.Spec.Eligible
import Verif.Model.Analyse

namespace Dredd

/-- The expression may be replaced, or its operator may. -/
def MayChange (opt : Bool) (above : List (Node × Nat)) (e : ExprFacts) (ks : List Node) : Prop :=
  Replaceable opt above e ks ∨ (∃ op e' t', UnaryOk opt e ks op e' t') ∨
    ∃ op sl el tl sr er tr, BinaryOk opt e ks op sl el tl sr er tr

/-- A declaration called `__dredd_prelude_start` begins at `off`. -/
def MarkerAt (root : Node) (off : Nat) : Prop :=
  ∃ p above d ks c, Place root p above (.decl d ks) ∧ d.kind = .func c (some off)

/-- A constant in a text, surrounded by something that a number does not merge with: neither a word
nor a full stop just before or behind it. -/
structure ConstTokens (src : Text) (k : ConstRewrite) : Prop where
  opens : Starts src k.span.b
  closes : Ends src k.span.e
  before : ∀ x, EndsAt src k.span.b x → x.1.isWord = false ∧ x.2 ≠ t!"."
  after : ∀ x, (k.span.e, x) ∈ places src → ∀ c cs, x.2 = c :: cs → wordChar c = false ∧ c ≠ '.'

/-- The syntax tree lies over the tokens of the text, in which the constants `ks` are needed at
compile time.
* `ranges` – statements and expressions begin and end with a token.
* `symbols` – the symbol of an operator is one token.
* `unary` – it is the first or the last token of a unary expression; in the latter case nothing
  begins just behind.
* `consts` – see `ConstTokens`; no statement, expression, placeholder function or other constant
  begins just behind a constant, and a placeholder does not begin inside one.
* `marker` – a placeholder function begins with a token, and that does not follow a slash.
* `right` – no word, number or literal comes just before a right operand, and
* `items` – none just before an item of a block. -/
structure LexedNodes (f : ParsedFile) (ks : List ConstRewrite) : Prop where
  ranges : ∀ p above s xs sp, Place f.ast p above (.stmt s xs) → s.range = some sp →
    Starts f.src sp.b ∧ Ends f.src sp.e
  symbols : ∀ p above s xs e q n, Place f.ast p above (.stmt s xs) → s.kind = .expr e →
    e.opOff = some q → (∃ op, e.cls = .binary op ∧ n = op.str.length) ∨
      (∃ op, e.cls = .unary op ∧ n = op.str.length) →
    ∃ x, (q, x) ∈ places f.src ∧ x.1.isToken = true ∧ x.2.length = n
  unary : ∀ p above s xs e sp op q, Place f.ast p above (.stmt s xs) → s.kind = .expr e →
    s.range = some sp → e.cls = .unary op → e.opOff = some q → q = sp.b ∨
      (q + op.str.length = sp.e ∧ ¬ MarkerAt f.ast sp.e ∧
        ∀ p' above' s' xs' sp', Place f.ast p' above' (.stmt s' xs') → s'.range = some sp' → sp'.b ≠ sp.e)
  consts : ∀ k ∈ ks, ConstTokens f.src k ∧
    (∀ p above s xs sp, Place f.ast p above (.stmt s xs) → s.range = some sp → sp.b ≠ k.span.e) ∧
    (∀ off, MarkerAt f.ast off → off ≤ k.span.b ∨ k.span.e < off) ∧
    ∀ k' ∈ ks, k'.span.b ≠ k.span.e
  marker : ∀ off, MarkerAt f.ast off → Starts f.src off ∧ ∀ x, EndsAt f.src off x → x.2 ≠ t!"/"
  right : ∀ p above s xs e op s' e' sp', Place f.ast p above (.stmt s xs) → s.kind = .expr e →
    e.cls = .binary op → HasChild xs .rhs s' e' → s'.range = some sp' → ¬ EndsWord f.src sp'.b
  items : ∀ p above s xs sp, Place f.ast p above (.stmt s xs) → ItemOfBlock above →
    s.range = some sp → ¬ EndsWord f.src sp.b

/-- The syntax tree lies over the tokens of the text (`LexedNodes`), and so does what belongs to an
item of a block, unless it ends with a comment. -/
structure LexedTree (f : ParsedFile) (ks : List ConstRewrite) : Prop extends LexedNodes f ks where
  extents : ∀ p above s xs sp, Place f.ast p above (.stmt s xs) → ItemOfBlock above →
    s.range = some sp → Ends f.src s.extEnd ∨ (s.extComment = true ∧ s.extSemi = false ∧
      ∃ x, EndsAt f.src s.extEnd x ∧ (x.1 = .line ∨ x.1 = .comment))

/-- If a word, number or literal comes just before an expression that may change, then this is the
beginning of an expression, the same or one around it, that may be replaced as a whole and for which it
is known. -/
def WordsKnown (opt : Bool) (f : ParsedFile) : Prop :=
  ∀ p above s xs e sp t, Place f.ast p above (.stmt s xs) →
    ExprOk f.lang opt above s e xs sp t → MayChange opt above e xs → EndsWord f.src sp.b →
    ∃ p' above' s' xs' e' sp' t', p' <+: p ∧ Place f.ast p' above' (.stmt s' xs') ∧
      ExprOk f.lang opt above' s' e' xs' sp' t' ∧ Replaceable opt above' e' xs' ∧
      ¬ DeclaredAt f.ast e'.beginLoc ∧ sp'.b = sp.b ∧ e'.precIdent = true

/-- If a word, number or literal comes just before an expression that may change, then it ends with a
letter, digit or underscore, and this is the beginning of an expression, the same or one around it, that
may be replaced as a whole. -/
def WordsReplaced (opt : Bool) (f : ParsedFile) : Prop :=
  ∀ p above s xs e sp t x, Place f.ast p above (.stmt s xs) →
    ExprOk f.lang opt above s e xs sp t → MayChange opt above e xs → EndsAt f.src sp.b x →
    x.1.isWord = true →
    (x.1 = .word ∨ ∃ c, x.2.getLast? = some c ∧ wordChar c = true) ∧
    ∃ p' above' s' xs' e' sp' t', p' <+: p ∧ Place f.ast p' above' (.stmt s' xs') ∧
      ExprOk f.lang opt above' s' e' xs' sp' t' ∧ Replaceable opt above' e' xs' ∧
      ¬ DeclaredAt f.ast e'.beginLoc ∧ sp'.b = sp.b

end Dredd
