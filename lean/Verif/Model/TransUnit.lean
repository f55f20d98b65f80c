/-
Processing of one translation unit: mutate_ast_consumer.cc 76-175, 475-506.
-/
import Verif.Model.Apply
import Verif.Model.Tree
import Verif.Model.Rewriter
import Verif.Model.PreludeText

namespace Dredd

/-- `protobufs::MutationTreeNode` (dredd.proto 28-34). -/
structure PNode where
  groups : List Group := []
  children : List Nat := []
deriving DecidableEq, Repr

/-- The state that `ApplyMutations` works on: the id counter `*mutation_id_`, the
flat list `mutation_tree` of the protobuf message, the calls made to the rewriter so
far, and the declarations collected so far. (mutate_ast_consumer.cc 475-480.) -/
structure TUState where
  nextId : Nat
  nodes : List PNode
  edits : List Edit := []
  decls : List MutFn := []
deriving Repr

/-- `add_mutation_groups` on node `i` (mutate_ast_consumer.cc 503). -/
def TUState.addGroup (st : TUState) (i : Nat) (g : Group) : TUState :=
  { st with nodes := st.nodes.modify i fun n => { n with groups := n.groups ++ [g] } }

/-- `add_children(mutation_tree_size())` on node `i` followed by
`add_mutation_tree()` (mutate_ast_consumer.cc 487-490). -/
def TUState.addChild (st : TUState) (i : Nat) : TUState :=
  { st with
    nodes := (st.nodes.modify i fun n => { n with children := n.children ++ [st.nodes.length] })
      ++ [{}] }

/-- The body of the loop over the mutations of a node
(mutate_ast_consumer.cc 496-505). -/
def applyMutation (l : Lang) (o : Options) (first : Nat) (buildTree : Bool) (i : Nat)
    (st : TUState) (m : Mutation) : TUState :=
  let r := m.apply l o first st.nextId
  let st' : TUState :=
    { st with nextId := r.nextId, edits := st.edits ++ r.edits, decls := st.decls ++ r.decls }
  if buildTree && decide (r.nextId > st.nextId) then st'.addGroup i r.group else st'

mutual
/-- `ApplyMutations` (mutate_ast_consumer.cc 475-506): children first, then the
mutations of the node itself.  `i` is the index of the protobuf node. -/
def applyMutations (l : Lang) (o : Options) (first : Nat) (buildTree : Bool) :
    MTree Mutation → Nat → TUState → TUState
  | .node ms ks, i, st =>
    ms.foldl (applyMutation l o first buildTree i) (applyChildren l o first buildTree ks i st)

/-- The loop over the children (mutate_ast_consumer.cc 484-494). -/
def applyChildren (l : Lang) (o : Options) (first : Nat) (buildTree : Bool) :
    List (MTree Mutation) → Nat → TUState → TUState
  | [], _, st => st
  | k :: ks, i, st =>
    applyChildren l o first buildTree ks i
      (applyMutations l o first buildTree k st.nodes.length (st.addChild i))
end

/-- A rewrite of a constant expression to an integer
(mutate_ast_consumer.cc 237-251): where it is and the number printed. -/
structure ConstRewrite where
  span : Span
  value : Nat
deriving DecidableEq, Repr

/-- A source file as the tool sees it: everything clang and the visitor provide for
the rest of the pipeline. (mutate_ast_consumer.cc 76-145.) -/
structure SourceFile where
  name : Text
  lang : Lang
  src : Text
  /-- `getDiagnostics().hasErrorOccurred()` (mutate_ast_consumer.cc 85) -/
  hasErrors : Bool
  /-- the mutation tree built by the visitor, before `TidyUp` -/
  tree : MTree Mutation
  /-- the constant expressions that are rewritten (177-235) -/
  consts : List ConstRewrite
  /-- offset of the prelude placeholder, if declared (142-145) -/
  preludeOff : Option Nat
deriving Repr

/-- `MutationInfoForFile` (dredd.proto 20-26). -/
structure FileInfo where
  filename : Text
  nodes : List PNode
deriving DecidableEq, Repr

/-- Insertion into a list sorted by the order of `std::string`, without
duplicates (`std::set<std::string>`, mutate_ast_consumer.cc 152-154). -/
def insertSorted (t : Text) : List Text → List Text
  | [] => [t]
  | x :: xs =>
    if t = x then x :: xs
    else if textLt t x then t :: x :: xs
    else x :: insertSorted t xs

/-- The sorted set of declarations (mutate_ast_consumer.cc 152-154); the result
does not depend on the order of the argument (see `Props/C23.lean`), which is
how the unordered set of line 113 is treated. -/
def sortedDecls (ds : List Text) : List Text := ds.foldr insertSorted []

/-- The rewriter calls made after `ApplyMutations`: constants (128), then the
declarations (155-160), then the prelude (162-170). (mutate_ast_consumer.cc 128,
155-160, 162-170.) -/
def finishEdits (f : SourceFile) (o : Options) (first : Nat) (st : TUState) : List Edit :=
  let loc := f.preludeOff.getD 0
  st.edits
  ++ f.consts.map (fun c => .replace c.span.b (c.span.e - c.span.b) (natDec c.value))
  ++ (sortedDecls (st.decls.map MutFn.render)).map (fun d => .before loc [.txt d])
  ++ [.before loc [.txt (preludeText f.lang o first (st.nextId - first))]]

/-- Result of processing one file. (mutate_ast_consumer.cc 123-137, 172.) -/
structure TUResult where
  nextId : Nat
  /-- the new contents if the file is overwritten -/
  output : Option Text
  /-- the entry added to the mutation info, if any -/
  info : Option FileInfo
deriving Repr

/-- `HandleTranslationUnit` (mutate_ast_consumer.cc 76-175).  `infoRequested` is
`mutation_info_->has_value()`. -/
def handleTU (o : Options) (infoRequested : Bool) (id : Nat) (f : SourceFile) : TUResult :=
  if f.hasErrors then { nextId := id, output := none, info := none }
  else
    let st := applyMutations f.lang o id infoRequested f.tree.tidyUp 0
      { nextId := id, nodes := [{}] }
    if st.nextId = id then { nextId := id, output := none, info := none }
    else
      { nextId := st.nextId
        output := some (rewrite f.src (finishEdits f o id st))
        info := if infoRequested then some ⟨f.name, st.nodes⟩ else none }

end Dredd
