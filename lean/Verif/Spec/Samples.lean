/-
Sample inputs used in the examples beside the theorems.
-/
import Verif.Model.Driver

namespace Dredd.Sample

def cpp : Lang := ⟨true, true, true, true⟩
def c : Lang := ⟨false, false, true, true⟩
def opts : Options := ⟨true, false, false, false⟩
def track : Options := ⟨true, false, true, false⟩
def noopt : Options := ⟨false, false, false, false⟩

/-- An `int` r-value that is not a constant. -/
def intVal : ExprInfo := ⟨.int, false, false, false, false, none, none, none, false⟩
/-- An `int` l-value. -/
def intVar : ExprInfo := { intVal with lvalue := true }
/-- The constants 0 and 1 of type `int`. -/
def intConst (n : Int) : ExprInfo :=
  ⟨.int, false, false, false, false, some n, none, some (n != 0), true⟩
/-- A `bool` r-value with side effects. -/
def boolCall : ExprInfo := ⟨.bool, false, false, false, true, none, none, none, false⟩

def info : RangeInfo := ⟨⟨1, 9⟩, ⟨1, 14⟩, t!"a + b"⟩

/-- `a + b` at offsets 8..13 of `int f(){a + b;}`. -/
def bin (op : BOp) (lhs rhs : ExprInfo) : BinSite :=
  ⟨op, lhs, rhs, if op.isLogical || op.isRelational then .bool else .int, some 10, ⟨8, 13⟩, ⟨8, 9⟩,
    ⟨12, 13⟩, info, info, info, []⟩
def un (op : UOp) (sub self : ExprInfo) : UnSite := ⟨op, sub, self, some 8, ⟨8, 13⟩, info, info, []⟩
def expr (self : ExprInfo) : ExprSite := ⟨self, none, false, true, none, false, ⟨8, 9⟩, info, []⟩
def stmt : StmtSite := ⟨⟨8, 13⟩, 14, false, true, false, info, []⟩

/-- Mutations of the two operands, of the addition and of the statement, with
some useless nodes in between. -/
def tree : MTree Mutation :=
  .node [] [.node [.stmt stmt]
    [.node [.bin (bin .add intVal intVal), .expr (expr intVal)]
      [.node [] [.node [.expr (expr intVal)] []], .node [] [], .node [.expr (expr intVal)] []]]]

def file (name : Text) (l : Lang) : SourceFile :=
  ⟨name, l, t!"int f(){a + b;}", false, tree, [], none⟩
def badFile : SourceFile := { file t!"bad.cc" cpp with hasErrors := true }
def emptyFile : SourceFile := { file t!"empty.cc" cpp with tree := .node [] [] }

def run : List SourceFile :=
  [file t!"a.cc" cpp, badFile, file t!"b.c" c, emptyFile, file t!"a.cc" cpp]

end Dredd.Sample
