/-
Specification of the instrumented text (C30): source text as a tree of
instrumented pieces, and the text obtained by wrapping each instrumented piece
around its own instrumented parts.  Nothing here mentions offsets of edits or the
order in which they are made.
-/
import Verif.Proofs.TreeRun

namespace Dredd

/-- A piece of source text.
* `text t` – text that is not instrumented.
* `const old v` – a constant expression that is rewritten to the number `v`.
* `expr s body` – an expression instrumented for replacement.
* `bin s lhs g1 g2 rhs` – a binary operator instrumented for replacement, with the
  text between operands and operator symbol.
* `pre s body`, `post s body` – a prefix or postfix operator instrumented for
  replacement.
* `stmt s body ext` – a statement instrumented for removal, followed by the comments
  and the semicolon that belong to it.
An expression with several mutations is a piece whose only part is a piece. -/
inductive Lay
  | text (t : Text)
  | const (old : Text) (value : Nat)
  | expr (s : ExprSite) (body : List Lay)
  | bin (s : BinSite) (lhs : List Lay) (g1 g2 : Text) (rhs : List Lay)
  | pre (s : UnSite) (body : List Lay)
  | post (s : UnSite) (body : List Lay)
  | stmt (s : StmtSite) (body : List Lay) (ext : Text)

mutual
/-- The source text. -/
def Lay.src : Lay → Text
  | .text t => t
  | .const old _ => old
  | .expr _ body => Lay.srcL body
  | .bin s lhs g1 g2 rhs => Lay.srcL lhs ++ g1 ++ s.op.str ++ g2 ++ Lay.srcL rhs
  | .pre s body => s.op.str ++ Lay.srcL body
  | .post s body => Lay.srcL body ++ s.op.str
  | .stmt _ body ext => Lay.srcL body ++ ext

def Lay.srcL : List Lay → Text
  | [] => []
  | x :: xs => x.src ++ Lay.srcL xs
end

mutual
/-- The mutations, those of the parts of a piece before those of the piece. -/
def Lay.muts : Lay → List Mutation
  | .text _ => []
  | .const _ _ => []
  | .expr s body => Lay.mutsL body ++ [.expr s]
  | .bin s lhs _ _ rhs => Lay.mutsL lhs ++ Lay.mutsL rhs ++ [.bin s]
  | .pre s body => Lay.mutsL body ++ [.un s]
  | .post s body => Lay.mutsL body ++ [.un s]
  | .stmt s body _ => Lay.mutsL body ++ [.stmt s]

def Lay.mutsL : List Lay → List Mutation
  | [] => []
  | x :: xs => x.muts ++ Lay.mutsL xs
end

mutual
/-- The constant expressions that are rewritten, for text at offset `off`. -/
def Lay.consts (off : Nat) : Lay → List ConstRewrite
  | .text _ => []
  | .const old v => [⟨⟨off, off + old.length⟩, v⟩]
  | .expr _ body => Lay.constsL off body
  | .bin s lhs g1 g2 rhs =>
    Lay.constsL off lhs ++
      Lay.constsL (off + (Lay.srcL lhs).length + g1.length + s.op.str.length + g2.length) rhs
  | .pre s body => Lay.constsL (off + s.op.str.length) body
  | .post _ body => Lay.constsL off body
  | .stmt _ body _ => Lay.constsL off body

def Lay.constsL (off : Nat) : List Lay → List ConstRewrite
  | [] => []
  | x :: xs => x.consts off ++ Lay.constsL (off + x.src.length) xs
end

mutual
/-- The places recorded in the mutations are where the pieces are; `off` is the
offset of the piece. -/
def Lay.Fits (off : Nat) : Lay → Prop
  | .text _ => True
  | .const _ _ => True
  | .expr s body => s.span = ⟨off, off + (Lay.srcL body).length⟩ ∧ Lay.FitsL off body
  | .bin s lhs g1 g2 rhs =>
    let le := off + (Lay.srcL lhs).length
    let rb := le + g1.length + s.op.str.length + g2.length
    let re := rb + (Lay.srcL rhs).length
    s.lhsSpan = ⟨off, le⟩ ∧ s.opOff = some (le + g1.length) ∧ s.rhsSpan = ⟨rb, re⟩ ∧
      s.span = ⟨off, re⟩ ∧ Lay.FitsL off lhs ∧ Lay.FitsL rb rhs
  | .pre s body =>
    s.opOff = some off ∧ s.span = ⟨off, off + s.op.str.length + (Lay.srcL body).length⟩ ∧
      Lay.FitsL (off + s.op.str.length) body
  | .post s body =>
    s.opOff = some (off + (Lay.srcL body).length) ∧
      s.span = ⟨off, off + (Lay.srcL body).length + s.op.str.length⟩ ∧ Lay.FitsL off body
  | .stmt s body ext =>
    s.span = ⟨off, off + (Lay.srcL body).length⟩ ∧
      s.extEnd = off + (Lay.srcL body).length + ext.length ∧ Lay.FitsL off body

def Lay.FitsL (off : Nat) : List Lay → Prop
  | [] => True
  | x :: xs => x.Fits off ∧ Lay.FitsL (off + x.src.length) xs
end

/-- The piece is instrumented. -/
def Lay.isNode : Lay → Bool
  | .text _ | .const _ _ => false
  | _ => true

/-- No two neighbours in the list are both instrumented. -/
def Lay.spaced : List Lay → Bool
  | x :: y :: ys => !(x.isNode && y.isNode) && Lay.spaced (y :: ys)
  | _ => true

mutual
/-- No piece is empty, and an instrumented piece never begins just where another
one ends. -/
def Lay.Apart : Lay → Prop
  | .text t => t ≠ []
  | .const old _ => old ≠ []
  | .expr _ body => body ≠ [] ∧ Lay.spaced body ∧ Lay.ApartL body
  | .bin _ lhs _ _ rhs =>
    lhs ≠ [] ∧ rhs ≠ [] ∧ Lay.spaced lhs ∧ Lay.spaced rhs ∧ Lay.ApartL lhs ∧ Lay.ApartL rhs
  | .pre _ body => Lay.spaced body ∧ Lay.ApartL body
  | .post _ body => Lay.spaced body ∧ Lay.ApartL body
  | .stmt _ body _ => body ≠ [] ∧ Lay.spaced body ∧ Lay.ApartL body

def Lay.ApartL : List Lay → Prop
  | [] => True
  | x :: xs => x.Apart ∧ Lay.ApartL xs
end

/-! ### The instrumented text -/

/-- A value wrapped into a lambda. -/
def thunk (ty x : Text) : Text :=
  t!"[&]() -> " ++ ty ++ t!" { return static_cast<" ++ ty ++ t!">(" ++ x ++ t!"); }"

/-- The same for an expression that may be a constant, which is not converted. -/
def thunkE (const : Bool) (ty x : Text) : Text :=
  if const then t!"[&]() -> " ++ ty ++ t!" { return " ++ x ++ t!"; }" else thunk ty x

/-- `&(x)` if so wanted. -/
def addr (b : Bool) (x : Text) : Text := if b then t!"&(" ++ x ++ t!")" else x

/-- `(x)` if so wanted. -/
def paren (b : Bool) (x : Text) : Text := if b then t!"(" ++ x ++ t!")" else x

/-- `fn(args, id)`. -/
def callText (fn args : Text) (id : Nat) : Text :=
  fn ++ t!"(" ++ args ++ t!", " ++ natDec id ++ t!")"

/-- An instrumented expression. -/
def ExprSite.wrapText (s : ExprSite) (l : Lang) (o : Options) (id : Nat) (x : Text) : Text :=
  let x := paren (s.binOp == some .comma) x
  let x := addr (!l.cpp && s.self.lvalue && (s.inputTy l).getLast? == some '*') x
  let x := if l.cpp && s.self.sideEffects then thunkE s.self.cxx11Const (s.inputTy l) x else x
  let x := callText (s.fnName l o.optimise ++ nodeComment o s.node) x id
  let x := match s.initListCast with
    | some ty => t!"static_cast<" ++ ty.name l ++ t!">(" ++ x ++ t!")"
    | none => x
  if s.precIdent then t!" " ++ x else x

/-- An instrumented binary operator: a call with the operands as arguments; for a
logical operator in C, calls around the operands and around the whole. -/
def BinSite.wrapText (s : BinSite) (l : Lang) (o : Options) (id : Nat) (x g1 g2 y : Text) : Text :=
  if !l.cpp && s.op.isLogical then
    let n := s.fnName l o.optimise
    let arg (suffix z : Text) : Text := if o.track then z else callText (n ++ suffix) z id
    callText (n ++ t!"_outer") (arg t!"_lhs" x ++ g1 ++ s.op.str ++ g2 ++ arg t!"_rhs" y) id
  else
    let x := if l.cpp then if s.lhs.sideEffects then thunk (s.lhsTyText l) x else x
      else addr s.op.isAssign x
    let y := if l.cpp && (s.op.isLogical || s.rhs.sideEffects) then thunk (s.rhs.ty.name l) y else y
    callText (s.fnName l o.optimise ++ nodeComment o s.node) (x ++ g1 ++ t!"," ++ g2 ++ y) id

/-- An instrumented unary operator: a call with the operand as argument. -/
def UnSite.wrapText (s : UnSite) (l : Lang) (o : Options) (id : Nat) (x : Text) : Text :=
  let x := addr (!l.cpp && s.op.isIncDec) x
  let x := if l.cpp && s.self.sideEffects then thunkE s.sub.cxx11Const (s.inputTy l) x else x
  callText (s.fnName l o.optimise ++ nodeComment o s.node) x id

/-- An instrumented statement, `x` being the statement with the comments and the
semicolon that follow it. -/
def StmtSite.wrapText (s : StmtSite) (o : Options) (id : Nat) (x : Text) : Text :=
  if o.track then
    t!"__dredd_record_covered_mutants" ++ nodeComment o s.node ++ t!"(" ++ natDec id ++ t!", 1); "
      ++ x
  else
    t!"if (!__dredd_enabled_mutation" ++ nodeComment o s.node ++ t!"(" ++ natDec id ++ t!")) { "
      ++ x
      ++ (if s.extComment && !s.extSemi then t!"\n" else [])
      ++ (if !s.extSemi && s.nextHash then t!"; " else [])
      ++ t!" }"

mutual
/-- The instrumented text of a piece whose first mutant has number `id` in the
file. -/
def Lay.out (l : Lang) (o : Options) (id : Nat) : Lay → Text
  | .text t => t
  | .const _ v => natDec v
  | .expr s body =>
    s.wrapText l o (id + countAll l o.optimise (Lay.mutsL body)) (Lay.outL l o id body)
  | .bin s lhs g1 g2 rhs =>
    s.wrapText l o
      (id + countAll l o.optimise (Lay.mutsL lhs) + countAll l o.optimise (Lay.mutsL rhs))
      (Lay.outL l o id lhs) g1 g2
      (Lay.outL l o (id + countAll l o.optimise (Lay.mutsL lhs)) rhs)
  | .pre s body =>
    s.wrapText l o (id + countAll l o.optimise (Lay.mutsL body)) (Lay.outL l o id body)
  | .post s body =>
    s.wrapText l o (id + countAll l o.optimise (Lay.mutsL body)) (Lay.outL l o id body)
  | .stmt s body ext =>
    s.wrapText o (id + countAll l o.optimise (Lay.mutsL body)) (Lay.outL l o id body ++ ext)

def Lay.outL (l : Lang) (o : Options) (id : Nat) : List Lay → Text
  | [] => []
  | x :: xs => x.out l o id ++ Lay.outL l o (id + countAll l o.optimise x.muts) xs
end

end Dredd
