/-
Specification of parsed source text (C30): a syntax tree together with the text
that it was parsed from.  Nothing here depends on what the visitor does.
-/
import Verif.Model.Analyse
import Verif.Spec.Layout

namespace Dredd

/-- A piece of parsed source text.
* `tok t` – tokens, white space and comments that belong to the node around them.
* `quiet n ls` – a subtree in which there is nothing to mutate, possibly without any
  text (nodes that the compiler adds, macro expansions).  Some stretches of its text
  may be constants that are rewritten to a number.
* `node i ps` – a node and its parts. -/
inductive Src
  | tok (t : Text)
  | quiet (n : Node) (ls : List (Text × Option Nat))
  | node (i : NodeInfo) (ps : List Src)

/-- The node with children. -/
def NodeInfo.mk : NodeInfo → List Node → Node
  | .decl d, ks => .decl d ks
  | .stmt s, ks => .stmt s ks
  | .other k, ks => .other k ks

/-- The text of stretches. -/
def leafText (ls : List (Text × Option Nat)) : Text := ls.flatMap (·.1)

/-- The rewrites of constants among stretches. -/
def leafConsts : Nat → List (Text × Option Nat) → List ConstRewrite
  | _, [] => []
  | off, (t, some v) :: ls => ⟨⟨off, off + t.length⟩, v⟩ :: leafConsts (off + t.length) ls
  | off, (t, none) :: ls => leafConsts (off + t.length) ls

mutual
/-- The text. -/
def Src.str : Src → Text
  | .tok t => t
  | .quiet _ ls => leafText ls
  | .node _ ps => Src.strL ps

def Src.strL : List Src → Text
  | [] => []
  | p :: ps => p.str ++ Src.strL ps
end

mutual
/-- The syntax tree, if the piece is not only text. -/
def Src.nodes : Src → List Node
  | .tok _ => []
  | .quiet n _ => [n]
  | .node i ps => [i.mk (Src.nodesL ps)]

def Src.nodesL : List Src → List Node
  | [] => []
  | p :: ps => p.nodes ++ Src.nodesL ps
end

mutual
/-- The constants that are rewritten, for text at offset `off`. -/
def Src.consts (off : Nat) : Src → List ConstRewrite
  | .tok _ => []
  | .quiet _ ls => leafConsts off ls
  | .node _ ps => Src.constsL off ps

def Src.constsL (off : Nat) : List Src → List ConstRewrite
  | [] => []
  | p :: ps => p.consts off ++ Src.constsL (off + p.str.length) ps
end

/-! ### Subtrees with nothing to mutate -/

/-- Not a statement with a place in the file. -/
def Node.unplaced : Node → Bool
  | .stmt s _ => s.range.isNone
  | _ => true

/-- A statement that has no place in the file, or that is not an expression of a
type that is mutated. -/
def AStmt.still (s : AStmt) : Bool :=
  s.range.isNone ||
    match s.kind with
    | .expr e => e.ty.isNone
    | _ => true

/-- The statements that have statements as items. -/
def AStmt.hasItems (s : AStmt) : Bool :=
  match s.kind with
  | .compound | .case_ | .default_ => true
  | _ => false

mutual
/-- Nothing in the subtree can be mutated: it has no place in the file or is not an
expression of a type that is mutated, and no item of a block has a place. -/
def Node.still : Node → Bool
  | .decl _ ks => Node.stillL ks
  | .other _ ks => Node.stillL ks
  | .stmt s ks => s.still && (!s.hasItems || ks.all Node.unplaced) && Node.stillL ks

def Node.stillL : List Node → Bool
  | [] => true
  | k :: ks => k.still && Node.stillL ks
end

/-- Constructs in which constants are required: array sizes, template arguments,
static assertions, default arguments, `constexpr` functions, the operands of
`noexcept` and of `__builtin_frame_address`, constant expressions. -/
def Node.constantOnly : Node → Bool
  | .decl d _ =>
    match d.kind with
    | .staticAssert _ | .parm => true
    | .func constexpr _ => constexpr
    | _ => false
  | .other k _ =>
    match k with
    | .constArrayType | .depArrayType | .templateArg | .lambdaCapture => true
    | _ => false
  | .stmt s _ =>
    match s.kind with
    | .expr e =>
      match e.cls with
      | .userLiteral | .constant | .noexcept => true
      | .call (some _) _ _ => true
      | _ => false
    | _ => false

/-- As an item of a block: a null statement, or without place, or not a
statement. -/
def Node.stillItem : Node → Bool
  | .stmt s _ => s.range.isNone || s.kind == .null
  | _ => true

/-! ### Layout -/

/-- The piece is an expression with the given role. -/
def Src.Is (r : Role) (p : Src) : Prop :=
  ∃ s e qs, p = .node (.stmt s) qs ∧ s.kind = .expr e ∧ s.role = r

/-- An operand, if there is one, has no place in the file. -/
def Unplaced (r : Role) (ps : List Src) : Prop :=
  ∀ x, childExpr r (Src.nodesL ps) = some x → x.1.range = none

/-- The parts of an expression at offset `off` whose operator is written in the file
are the operands, the operator symbol, and what is between them. -/
def OperatorPlaced (off : Nat) (e : ExprFacts) (ps : List Src) : Prop :=
  match e.cls with
  | .binary op =>
    (∃ a g1 g2 b, ps = [a, .tok (g1 ++ op.str ++ g2), b] ∧ a.Is .lhs ∧ b.Is .rhs ∧
      e.opOff = some (off + a.str.length + g1.length)) ∨
    Unplaced .lhs ps ∨ Unplaced .rhs ps
  | .unary op =>
    (if op.isPrefix then
      ∃ g a, ps = [.tok (op.str ++ g), a] ∧ a.Is .operand ∧ e.opOff = some off
     else
      ∃ a g, ps = [a, .tok (g ++ op.str)] ∧ a.Is .operand ∧ e.opOff = some (off + a.str.length + g.length)) ∨
    Unplaced .operand ps
  | _ => True

/-- A statement with `len` characters at `off`: if it has a place in the file, it is
that one, what follows it comes after it, and its operator is in its place. -/
def StmtPlaced (off len : Nat) (s : AStmt) (ps : List Src) : Prop :=
  s.range = none ∨
    (s.range = some ⟨off, off + len⟩ ∧ 0 < len ∧ off + len ≤ s.extEnd ∧
      ∀ e, s.kind = .expr e → OperatorPlaced off e ps)

/-- The last part is the last node, and may be the item of a block. -/
def endsInItem : List Src → Bool
  | [] => true
  | [.node _ _] => true
  | [.quiet n _] => n.stillItem
  | [.tok _] => false
  | _ :: ps => endsInItem ps

/-- The number of characters after an item of a block that belong to it (comments and
a semicolon); for a labelled statement those after the statement. -/
def itemExt : Src → Nat
  | .node (.stmt s) ps =>
    match s.kind with
    | .case_ | .default_ => lastExt ps
    | _ =>
      match s.range with
      | some sp => s.extEnd - sp.e
      | none => 0
  | _ => 0
where
  /-- of the last part -/
  lastExt : List Src → Nat
    | [] => 0
    | [p] => itemExt p
    | _ :: p :: ps => lastExt (p :: ps)

/-- The node itself is well placed. -/
def NodePlaced (off len : Nat) (i : NodeInfo) (ps : List Src) : Prop :=
  match i with
  | .stmt s => StmtPlaced off len s ps ∧ (s.kind = .case_ ∨ s.kind = .default_ → endsInItem ps = true)
  | _ => True

/-- The node is a block. -/
def NodeInfo.isBlock : NodeInfo → Bool
  | .stmt s => s.kind == .compound
  | _ => false

mutual
/-- A piece of parsed text at offset `off`: the nodes are where they say. -/
def Src.Laid (off : Nat) : Src → Prop
  | .tok t => t ≠ []
  | .quiet n ls => (n.still = true ∨ n.constantOnly = true) ∧ ∀ x ∈ ls, x.1 ≠ []
  | .node i ps =>
    NodePlaced off (Src.strL ps).length i ps ∧
      ((i.isBlock = false ∧ Src.LaidL off false ps) ∨ (i.isBlock = true ∧ Src.LaidB off false 0 ps))

/-- Consecutive parts: no node begins just where another one ends; `near` says whether
there is a node just before. -/
def Src.LaidL (off : Nat) (near : Bool) : List Src → Prop
  | [] => True
  | .tok t :: ps => Src.Laid off (.tok t) ∧ Src.LaidL (off + t.length) false ps
  | .quiet n ls :: ps =>
    Src.Laid off (.quiet n ls) ∧
      Src.LaidL (off + (leafText ls).length) (near && (leafText ls).isEmpty) ps
  | .node i qs :: ps =>
    near = false ∧ Src.Laid off (.node i qs) ∧ Src.LaidL (off + (Src.strL qs).length) true ps

/-- The same for the parts of a block.  The `ext` characters that come next belong to
the item before; there is more text between them and the next node. -/
def Src.LaidB (off : Nat) (near : Bool) (ext : Nat) : List Src → Prop
  | [] => ext = 0
  | .tok t :: ps =>
    Src.Laid off (.tok t) ∧ ext ≤ t.length ∧
      Src.LaidB (off + t.length) (near && ext == t.length) 0 ps
  | .quiet n ls :: ps =>
    ext = 0 ∧ Src.Laid off (.quiet n ls) ∧ n.stillItem = true ∧
      Src.LaidB (off + (leafText ls).length) (near && (leafText ls).isEmpty) 0 ps
  | .node i qs :: ps =>
    ext = 0 ∧ near = false ∧ Src.Laid off (.node i qs) ∧
      Src.LaidB (off + (Src.strL qs).length) true (itemExt (.node i qs)) ps
end

end Dredd
