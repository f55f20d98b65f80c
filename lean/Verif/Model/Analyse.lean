/-
From a parsed file to what the rest of the pipeline uses: mutate_ast_consumer.cc
95, 116-130, 142-145, 177-251.
-/
import Verif.Model.Visitor
import Verif.Model.TransUnit

namespace Dredd

/-- `RewriteExpressionInMainFileToIntegerConstant` (mutate_ast_consumer.cc
237-251): the rewrite made, if any. -/
def rewriteConst (a : ConstArg) (value : Nat) : List ConstRewrite :=
  match a.range with
  | none => []
  | some sp => [⟨sp, value⟩]

/-- The rewrite of an integer constant to its value (mutate_ast_consumer.cc
198-205, 227-232). -/
def rewriteToValue (a : ConstArg) : List ConstRewrite :=
  match a.value with
  | none => []
  | some v => rewriteConst a v.limited

/-- `already_rewritten` (mutate_ast_consumer.cc 220-226): the arguments without
repetitions. -/
def freshArgs (seen : List Nat) : List ConstArg → List ConstArg
  | [] => []
  | a :: as =>
    if seen.contains a.addr then freshArgs seen as else a :: freshArgs (a.addr :: seen) as

/-- `RewriteExpressionsInMainFile` (mutate_ast_consumer.cc 177-235). -/
def constRewrites (st : VState) : List ConstRewrite :=
  st.arrays.flatMap rewriteToValue ++ st.asserts.flatMap (rewriteConst · 1) ++
    (freshArgs [] st.args).flatMap rewriteToValue

namespace MTree
variable {α β : Type}
mutual
/-- The mutations without their positions; the positions are only kept for the
proofs (`std::unique_ptr<Mutation>`, mutation_tree_node.h 62). -/
def dropPos : MTree (α × β) → MTree β
  | node ms ks => node (ms.map (·.2)) (dropPosL ks)
/-- The same for a list of trees (mutation_tree_node.h 63). -/
def dropPosL : List (MTree (α × β)) → List (MTree β)
  | [] => []
  | k :: ks => dropPos k :: dropPosL ks
end
end MTree

/-- A file as clang hands it over (mutate_ast_consumer.cc 76-95). -/
structure ParsedFile where
  name : Text
  lang : Lang
  src : Text
  hasErrors : Bool
  ast : Node

/-- The visitor run on the file (mutate_ast_consumer.cc 95), and what the rest of
`HandleTranslationUnit` takes from it (116-130, 142-145). -/
def analyse (opt : Bool) (f : ParsedFile) : SourceFile :=
  let st := visitTU f.lang opt f.ast
  { name := f.name
    lang := f.lang
    src := f.src
    hasErrors := f.hasErrors
    tree := st.cur.dropPos
    consts := constRewrites st
    preludeOff := st.prelude }

end Dredd
