/-
Sample syntax trees used in the examples beside the theorems.
-/
import Verif.Model.Analyse
import Verif.Spec.Samples

namespace Dredd.SampleAst

def facts (cls : ExprCls) (ty : Option BTy) (lvalue : Bool) (loc : Nat) : ExprFacts :=
  ⟨cls, ty, lvalue, false, false, true, none, none, none, false, false, false, false, false, true,
    loc, none, some 0, false, false, false⟩

def node (kind : StmtKind) (role : Role) (b e : Nat) (ks : List Node) : Node :=
  .stmt ⟨kind, role, some ⟨b, e⟩, Sample.info, [], e, false, false, false⟩ ks

/-- A variable of type `int`, read: an l-value below an implicit cast. -/
def read (role : Role) (b e : Nat) : Node :=
  node (.expr (facts (.cast true false) (some .int) false b)) role b e
    [node (.expr (facts .other (some .int) true b)) .operand b e []]

/-- A literal. -/
def lit (role : Role) (b e : Nat) : Node :=
  node (.expr (facts .other (some .int) false b)) role b e []

/-- A binary operator on `int`. -/
def bin (op : BOp) (role : Role) (b e : Nat) (l r : Node) : Node :=
  node (.expr { facts (.binary op) (some .int) false b with opOff := some (b + 2) }) role b e [l, r]

/-- A compound statement. -/
def block (b e : Nat) (ks : List Node) : Node := node .compound .plain b e ks

/-- A function with a body. -/
def func (constexpr : Bool) (b e : Nat) (ks : List Node) : Node :=
  .decl ⟨.func constexpr none, some ⟨b, e⟩⟩ ks

/-- A translation unit. -/
def tu (ks : List Node) : Node := .decl ⟨.tu, none⟩ ks

/-- `int g(){return a + b;}` preceded by a `constexpr` function with the same
body. -/
def two : Node :=
  tu [func true 0 33 [block 17 33 [node .other .plain 18 30 [bin .add .plain 25 30 (read .lhs 25 26) (read .rhs 29 30)]]],
    func false 34 57 [block 41 57 [node .other .plain 42 54 [bin .add .plain 49 54 (read .lhs 49 50) (read .rhs 53 54)]]]]

/-- An `int` variable of static storage with the given initialiser. -/
def global (ks : List Node) : Node :=
  .decl ⟨.var ⟨7, false, [], [], false, false, false⟩, some ⟨0, 40⟩⟩ ks

/-- `int x = [](){f(); return 1;}();` at file scope: a lambda with a call in
it. -/
def globalLambda : Node :=
  tu [global [node (.expr (facts (.call none false false) (some .int) false 8)) .plain 8 30
    [node (.expr (facts (.lambda false) none false 8)) .plain 8 28
      [block 12 28 [node (.expr (facts (.call none false false) none false 13)) .plain 13 16 []]]]]]

/-- `void g(int n){sizeof(int[n + 1]);}` -/
def sizeofVla : Node :=
  tu [func false 0 40 [block 13 40 [node .other .plain 14 38
    [node (.expr (facts (.sizeOrAlign true) (some .ulong) false 14)) .plain 14 32
      [.other .varArrayType [bin .add .plain 26 31 (read .lhs 26 27) (lit .rhs 30 31)]]]]]]

/-- `void g(int n){__alignof(n + 1);}` -/
def alignofExpr : Node :=
  tu [func false 0 40 [block 13 40 [node .other .plain 14 38
    [node (.expr (facts (.sizeOrAlign false) (some .ulong) false 14)) .plain 14 32
      [bin .add .plain 26 31 (read .lhs 26 27) (lit .rhs 30 31)]]]]]

/-- `void g(){ return [](int n) constexpr { return n + 1; }(2); }` -/
def constexprLambda : Node :=
  tu [func false 0 60 [block 8 60 [node .other .plain 10 58
    [node (.expr (facts (.call none false false) (some .int) false 17)) .plain 17 57
      [node (.expr (facts (.lambda true) none false 17)) .plain 17 54
        [block 35 54 [node .other .plain 37 52 [bin .add .plain 44 49 (read .lhs 44 45) (lit .rhs 48 49)]]]]]]]]

/-- `void g(int n){int a[n + 1];}` -/
def vla : Node :=
  tu [func false 0 40 [block 13 40 [node .declStmt .plain 14 28
    [.decl ⟨.var ⟨18, false, [], [], false, false, false⟩, some ⟨14, 27⟩⟩
      [.other .varArrayType [bin .add .plain 20 25 (read .lhs 20 21) (lit .rhs 24 25)]]]]]]

end Dredd.SampleAst
