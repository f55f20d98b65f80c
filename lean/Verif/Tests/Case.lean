/-
Tests of the model against the expected outputs in /repo/test/single_file.  These are
tests: they show that the model computes the text that the code is known to produce for
the sources of these cases, and are no part of any proof.
-/
import Verif.Model.Analyse
import Verif.Model.TextFacts
import Verif.Model.StmtEnd
import Verif.Model.Util
import Verif.Model.RewriteBuffer

namespace Dredd.Tests

def cpp : Lang := ⟨true, true, true, true⟩
def c : Lang := ⟨false, false, true, true⟩
/-- C with `stdbool.h`. -/
def cBool : Lang := ⟨false, true, true, true⟩

/-- A source file with its syntax tree, and the files `….expected` and `….noopt.expected`. -/
structure Case where
  name : String
  lang : Lang
  src : Text
  ast : Node
  expected : String
  noopt : String

def mk (src : Text) (k : StmtKind) (role : Role) (range : Option Span) : AStmt :=
  let sp := range.getD ⟨0, 0⟩
  let e := stmtEnd (src.drop sp.e)
  { kind := k, role := role, range := range
    info := infoForRange src sp.b (sp.e - 1) 1, node := t!""
    extEnd := sp.e + e.len, extComment := e.comment, extSemi := e.semi, nextHash := e.hash }

/-- A statement. -/
def st (src : Text) (k : StmtKind) (role : Role) (range : Option Span) (kids : List Node) : Node :=
  .stmt (mk src k role range) kids

/-- An expression; `g` says what is special about it. -/
def ex (src : Text) (cls : ExprCls) (ty : Option BTy) (role : Role) (b : Nat) (range : Option Span)
    (g : ExprFacts → ExprFacts) (kids : List Node) : Node :=
  .stmt (mk src (.expr (g
    { cls := cls, ty := ty, lvalue := false, volatile := false, const := false
      sideEffects := false, intVal := none, floatVal := none, boolVal := none
      cxx11Const := false, anyPointer := false, pointer := false, bitField := false
      nullConst := false, consistent := true, beginLoc := b, initCast := none, opOff := none
      precIdent := range.any fun sp => precedingIsIdent src sp.b })) role range) kids

def Case.parsed (k : Case) : ParsedFile :=
  { name := k.name.toList, lang := k.lang, src := k.src, hasErrors := false, ast := k.ast }

/-- What the model of the tool writes. -/
def Case.output (k : Case) (optimise : Bool) : String :=
  String.ofList ((handleTU ⟨optimise, false, false, false⟩ true 0
    (analyse optimise k.parsed)).output.getD k.src)

/-- What the model of the tool writes when edits go through the model of the rewrite buffer. -/
def Case.bufferOutput (k : Case) (optimise : Bool) : String :=
  String.ofList ((handleTUBuffer (fun p => min 1 p) ⟨optimise, false, false, false⟩ true 0
    (analyse optimise k.parsed)).getD k.src)

def Case.ok (k : Case) : Bool :=
  k.output true == k.expected && k.output false == k.noopt &&
    k.bufferOutput true == k.expected && k.bufferOutput false == k.noopt

end Dredd.Tests
