/-
The visitor: mutate_visitor.cc.
-/
import Verif.Model.Ast
import Verif.Model.Tree

namespace Dredd

/-- With optimisation, `HandleBinaryOperator` adds no mutation if the left
operand is 0 and the right operand is 1 (mutate_visitor.cc 470-486). -/
def BinSite.zeroOpOne (s : BinSite) : Bool := s.lhs.isZero && s.rhs.isOne

/-- The mutations added for a binary operator that has passed the other checks
of `HandleBinaryOperator` (mutate_visitor.cc 470-491). -/
def BinSite.handle (s : BinSite) (opt : Bool) : List BinSite :=
  if opt && s.zeroOpOne then [] else [s]

/-- With optimisation, `HandleUnaryOperator` adds no mutation for `-1`, `~0`
and `~1` (mutate_visitor.cc 398-424). -/
def UnSite.constUnary (s : UnSite) : Bool :=
  (s.op == .minus && s.sub.isOne) || (s.op == .not && (s.sub.isZero || s.sub.isOne))

/-- The mutations added for a unary operator that has passed the other checks
of `HandleUnaryOperator` (mutate_visitor.cc 398-429). -/
def UnSite.handle (s : UnSite) (opt : Bool) : List UnSite :=
  if opt && s.constUnary then [] else [s]

/-- What the visitor knows at a node: the position (indices of children, from the
root), the ancestors, nearest first (`ASTContext::getParents`,
util.h 100-109), and `enclosing_decls_` (mutate_visitor.h 246-249), innermost
first. -/
structure Ctx where
  pos : List Nat
  above : List NodeInfo
  encl : List Decl

/-- Below a node, at its child `i`. (the position is kept for the proofs; the
parents are those of util.h 100-109.) -/
def Ctx.enter (c : Ctx) (n : NodeInfo) (i : Nat) : Ctx :=
  { c with pos := c.pos ++ [i], above := n :: c.above }

/-- `enclosing_decls_.push_back` (mutate_visitor.cc 158, 203). -/
def Ctx.push (c : Ctx) (d : Decl) : Ctx := { c with encl := d :: c.encl }

/-- `IsInFunction` (mutate_visitor.cc 72-93), on `enclosing_decls_`, innermost
first. -/
def isInFunction : List Decl → Bool
  | [] => false
  | d :: ds =>
    match d.kind with
    | .func _ _ => true
    | .var _ | .varLike _ | .parm => isInFunction ds
    | _ => false

/-- The cast that a node is, if it is one: whether it is implicit, and the facts
about it that are used. (mutate_visitor.cc 514-517, 549-562;
mutation_replace_expr.cc 711.) -/
def castOf : NodeInfo → Option (Bool × InitCast)
  | .stmt s =>
    match s.kind with
    | .expr e =>
      match e.cls with
      | .cast imp _ => some (imp, ⟨e.lvalue, e.anyPointer, e.ty⟩)
      | _ => none
    | _ => none
  | _ => none

/-- `GetFirstParentOfType<CastExpr>` (mutate_visitor.cc 514, 549). -/
def castParent (above : List NodeInfo) (e : ExprFacts) : Option InitCast :=
  match above.head?.bind castOf with
  | some (_, k) => some k
  | none => e.initCast

/-- `GetFirstParentOfType<ImplicitCastExpr>` (mutation_replace_expr.cc 711). -/
def implicitParent (above : List NodeInfo) (e : ExprFacts) : Option InitCast :=
  match above.head?.bind castOf with
  | some (true, k) => some k
  | _ => e.initCast

/-- The expression class of a node. (mutate_visitor.cc 216-264.) -/
def NodeInfo.cls? : NodeInfo → Option ExprCls
  | .stmt s =>
    match s.kind with
    | .expr e => some e.cls
    | _ => none
  | _ => none

/-- The statement kind of a node. (mutate_visitor.cc 251.) -/
def NodeInfo.kind? : NodeInfo → Option StmtKind
  | .stmt s => some s.kind
  | _ => none

/-- `GetFirstParentOfType` for a class of expressions. (util.h 100-109;
mutate_visitor.cc 239, 259.) -/
def parentCls (above : List NodeInfo) : Option ExprCls := above.head?.bind NodeInfo.cls?

/-- The node is a call that uses argument-dependent lookup (mutate_visitor.cc
765-770). -/
def isAdlCall : Option ExprCls → Bool
  | some (.call _ adl _) => adl
  | _ => false

/-- The expression is a `CXXMemberCallExpr` (mutate_visitor.cc 796, 809). -/
def isMemberCall : ExprCls → Bool
  | .call _ _ member => member
  | _ => false

/-- `MutatingMayAffectArgumentDependentLookup` (mutate_visitor.cc 772-823).  If
the cast around a member call is that of an initializer list, its parent is the
list, not a call. -/
def mayAffectAdl (above : List NodeInfo) (e : ExprFacts) (ks : List Node) : Bool :=
  (match e.cls with
   | .cast true _ =>
     (match childExpr .operand ks with
      | some (_, sub) => !sub.ty.isSome || isMemberCall sub.cls
      | none => false) && isAdlCall (parentCls above)
   | _ => false) ||
  (isMemberCall e.cls &&
    match above.head?.bind castOf with
    | some (true, _) => isAdlCall (parentCls above.tail)
    | _ => !e.initCast.isSome && isAdlCall (parentCls above))

mutual
/-- `MayDependOnLifetimeOfMaterializedTemporaryStorage` (mutate_visitor.cc
825-862). -/
def mayDependOnTemp : Node → Bool
  | .stmt s ks =>
    match s.kind with
    | .expr e =>
      match e.cls with
      | .temporary => true
      | .member => (e.lvalue || e.pointer) && anyTemp .base ks
      | .call _ _ _ => (e.lvalue || e.pointer) && anyTemp .callArg ks
      | _ => false
    | _ => false
  | _ => false

/-- The same for the children with a role (mutate_visitor.cc 838-839,
852-856). -/
def anyTemp (r : Role) : List Node → Bool
  | [] => false
  | .stmt s ks' :: ks => (decide (s.role = r) && mayDependOnTemp (.stmt s ks')) || anyTemp r ks
  | _ :: ks => anyTemp r ks
end

/-- `IsConversionOfEnumToConstructor` (mutate_visitor.cc 731-764). -/
def enumToConstructor (above : List NodeInfo) (e : ExprFacts) (ks : List Node) : Bool :=
  match e.cls with
  | .cast true _ =>
    parentCls above == some .construct &&
    match childExpr .operand ks with
    | some (_, sub) => sub.cls == .enumRef
    | none => false
  | _ => false

/-- `MutationReplaceExpr::CanMutateLValue` (mutation_replace_expr.cc 695-716). -/
def canMutateLValue (above : List NodeInfo) (e : ExprFacts) : Bool :=
  !(e.const || e.ty == some .bool) && !e.bitField &&
  match implicitParent above e with
  | some k => !k.lvalue
  | none => false

/-- The parent is a logical operator and the expression is one of its operands
(mutation_replace_expr.cc 878-884). -/
def isLogicalArg (above : List NodeInfo) (s : AStmt) : Bool :=
  match parentCls above with
  | some (.binary op) => op.isLogical && (s.role == .lhs || s.role == .rhs)
  | _ => false

/-- Out of enclosing parentheses (mutation_replace_expr.cc 598-602). -/
def deparenthesise : List NodeInfo → ExprFacts → List NodeInfo × ExprFacts
  | [], e => ([], e)
  | .stmt s :: above, e =>
    match s.kind with
    | .expr p => if p.cls = .paren then deparenthesise above p else (.stmt s :: above, e)
    | _ => (.stmt s :: above, e)
  | i :: above, e => (i :: above, e)

/-- `IsSubjectToImplicitCastInInitializerList` and the type of the cast
(mutation_replace_expr.cc 603-613, 889-907).  A cast to a type that is not
builtin is a null pointer dereference in the code and is not modelled. -/
def initListCast (above : List NodeInfo) (e : ExprFacts) : Option BTy :=
  let (above, e) := deparenthesise above e
  if parentCls above = some .initList then e.initCast.bind (·.ty) else none

/-- `HandleUnaryOperator` (mutate_visitor.cc 367-429): the mutations added.  The
types are those of the expression and its operand. -/
def handleUnary (opt : Bool) (s : AStmt) (sp : Span) (e : ExprFacts) (t : BTy) (op : UOp)
    (ks : List Node) : List Mutation :=
  match childExpr .operand ks with
  | none => []
  | some (s', e') =>
    match s'.range, e'.ty with
    | some _, some t' =>
      if op == .plus then []
      else if op.isIncDec && e'.bitField then []
      else
        ((⟨op, e'.infoAt t', e.infoAt t, e.opOff, sp, s.info, s'.info, s.node⟩ : UnSite).handle
          opt).map .un
    | _, _ => []

/-- `HandleBinaryOperator` (mutate_visitor.cc 431-491): the mutations added. -/
def handleBinary (opt : Bool) (s : AStmt) (sp : Span) (e : ExprFacts) (t : BTy) (op : BOp)
    (ks : List Node) : List Mutation :=
  match childExpr .lhs ks, childExpr .rhs ks with
  | some (sl, el), some (sr, er) =>
    match sl.range, sr.range, el.ty, er.ty with
    | some pl, some pr, some tl, some tr =>
      if op.isAssign && el.bitField then []
      else if op == .comma then []
      else
        ((⟨op, el.infoAt tl, er.infoAt tr, t, e.opOff, sp, pl, pr, s.info, sl.info, sr.info,
          s.node⟩ : BinSite).handle opt).map .bin
    | _, _, _, _ => []
  | _, _ => []

/-- The mutation for an expression. (mutate_visitor.cc 580-582;
mutation_replace_expr.cc 61-66.) -/
def exprSite (above : List NodeInfo) (s : AStmt) (sp : Span) (e : ExprFacts) (t : BTy) : ExprSite where
  self := e.infoAt t
  binOp := match e.cls with
    | .binary op => some op
    | _ => none
  logicalArg := isLogicalArg above s
  canMutateLValue := canMutateLValue above e
  initListCast := initListCast above e
  precIdent := e.precIdent
  span := sp
  info := s.info
  node := s.node

/-- The cast's operand is a bit-field and the cast is materialised
(mutate_visitor.cc 531-537). -/
def bitFieldTemporary (above : List NodeInfo) (e : ExprFacts) (ks : List Node) : Bool :=
  match e.cls with
  | .cast _ _ =>
    (match childExpr .operand ks with
     | some (_, sub) => sub.bitField
     | none => false) && parentCls above == some .temporary
  | _ => false

/-- The parent is a compound statement or a switch case (mutate_visitor.cc
572-575). -/
def parentIsBlock (above : List NodeInfo) : Bool :=
  match above.head?.bind NodeInfo.kind? with
  | some .compound | some .case_ | some .default_ => true
  | _ => false

/-- `HandleExpr` (mutate_visitor.cc 493-583): the mutations added. -/
def handleExpr (opt : Bool) (above : List NodeInfo) (s : AStmt) (sp : Span) (e : ExprFacts) (t : BTy)
    (ks : List Node) : List Mutation :=
  if e.lvalue && !canMutateLValue above e then []
  else if e.cls = .initList then []
  else if e.nullConst && ((castParent above e).map (·.anyPointer)).getD false then []
  else if enumToConstructor above e ks then []
  else if bitFieldTemporary above e ks then []
  else if opt && ((castParent above e).map fun k => k.lvalue == e.lvalue).getD false &&
      parentCls above != some .initList then []
  else if opt && parentIsBlock above then []
  else [.expr (exprSite above s sp e t)]

/-- The part of `VisitExpr` for operators (mutate_visitor.cc 649-655). -/
def handleOp (opt : Bool) (s : AStmt) (sp : Span) (e : ExprFacts) (t : BTy) (ks : List Node) :
    List Mutation :=
  match e.cls with
  | .unary op => handleUnary opt s sp e t op ks
  | .binary op => handleBinary opt s sp e t op ks
  | _ => []

/-- `VisitExpr` (mutate_visitor.cc 585-660): the mutations added for an
expression; `locs` is `var_decl_source_locations_`. -/
def visitExpr (opt : Bool) (c : Ctx) (locs : List Nat) (s : AStmt) (e : ExprFacts) (ks : List Node) :
    List Mutation :=
  if opt && e.cls == .paren then []
  else if opt && e.cls == .cleanups then []
  else if !isInFunction c.encl then []
  else if locs.contains e.beginLoc then []
  else
    match s.range with
    | none => []
    | some sp =>
      if !e.consistent then []
      else
        match e.ty with
        | none => []
        | some t =>
          if mayAffectAdl c.above e ks then []
          else if mayDependOnTemp (.stmt s ks) then []
          else
            handleOp opt s sp e t ks ++ handleExpr opt c.above s sp e t ks

/-- The checks at the beginning of `TraverseStmt` (mutate_visitor.cc 216-286):
the statement is not traversed. -/
def skipStmt (above : List NodeInfo) (s : AStmt) : Bool :=
  (match s.kind with
   | .expr e =>
     match e.cls with
     | .userLiteral | .constant | .noexcept => true
     | .call (some _) _ _ => true
     | .cast _ decltype => decltype
     | _ => false
   | _ => false) ||
  parentCls above == some (.sizeOrAlign true) ||
  (above.head?.bind NodeInfo.kind? == some (.if_ true) && s.role == .ifCond) ||
  (parentCls above == some .new && s.role == .newSize)

/-- The argument recorded by `TraverseStmt` (mutate_visitor.cc 271-278), if the
checks before (216-264) let it get there. -/
def frameArg (above : List NodeInfo) (s : AStmt) : List ConstArg :=
  match s.kind with
  | .expr e =>
    match e.cls with
    | .call (some a) _ _ =>
      if parentCls above == some (.sizeOrAlign true) ||
        (above.head?.bind NodeInfo.kind? == some (.if_ true) && s.role == .ifCond) ||
        (parentCls above == some .new && s.role == .newSize) then [] else [a]
    | _ => []
  | _ => []

/-- The state of the visitor (mutate_visitor.h 240-300): the node of the mutation
tree that `mutation_tree_path_.back()` points to, with the position of the
syntax node for each mutation, and what is recorded besides. -/
structure VState where
  cur : MTree (List Nat × Mutation)
  /-- `var_decl_source_locations_` -/
  locs : List Nat
  /-- `dredd_prelude_start_location_` -/
  prelude : Option Nat
  /-- the sizes of `constant_sized_arrays_to_rewrite_` -/
  arrays : List ConstArg
  /-- `static_assertions_to_rewrite_` -/
  asserts : List ConstArg
  /-- `constant_arguments_to_rewrite_` -/
  args : List ConstArg

/-- `PushMutationTreeRAII` around an action (mutate_visitor.h 146-168). -/
def VState.inChild (st : VState) (f : VState → VState) : VState :=
  let r := f { st with cur := .node [] [] }
  { r with cur := st.cur.addChild r.cur }

/-- `AddMutation` (mutate_visitor.cc 722-724), several times. -/
def VState.add (st : VState) (pos : List Nat) (ms : List Mutation) : VState :=
  { st with cur := ms.foldl (fun t m => t.addMutation (pos, m)) st.cur }

/-- The body of `TraverseStmt` (mutate_visitor.cc 211-292), `TraverseCaseStmt`
(294-299) and the visit after the children (post-order; mutate_visitor.h 103);
`kids`, `last` and `block` traverse all children, the last child, and the
children as the items of a compound statement. -/
def stmtStep (opt : Bool) (c : Ctx) (s : AStmt) (ks : List Node)
    (kids last block : Ctx → VState → VState) (st : VState) : VState :=
  if skipStmt c.above s then { st with args := st.args ++ frameArg c.above s }
  else
    st.inChild fun st =>
      match s.kind with
      | .compound => block c st
      | .case_ => last c st
      | .expr e =>
        let st := kids c st
        st.add c.pos (visitExpr opt c st.locs s e ks)
      | _ => kids c st

/-- The removal of a statement (mutation_remove_stmt.cc 36-41). -/
def stmtSite (s : AStmt) (sp : Span) : StmtSite :=
  ⟨sp, s.extEnd, s.extComment, s.extSemi, s.nextHash, s.info, s.node⟩

/-- The mutation added by `TraverseCompoundStmt` for an item
(mutate_visitor.cc 695-717). -/
def removal (opt : Bool) (s : AStmt) : List Mutation :=
  match s.range with
  | none => []
  | some sp =>
    match s.kind with
    | .null | .declStmt | .label => []
    | .compound => if opt then [] else [.stmt (stmtSite s sp)]
    | _ => [.stmt (stmtSite s sp)]

/-- "There is no point mutating a side-effect free expression statement"
(mutate_visitor.cc 678-685). -/
def pointless (opt : Bool) (s : AStmt) : Bool :=
  match s.kind with
  | .expr e => opt && !e.sideEffects
  | _ => false

/-- `SaveConstantTemplateArgumentForRewrite` (mutate_visitor.cc 864-889). -/
def savedArg : TArg → List ConstArg
  | .expr e => [e]
  | .type as => savedArgs as
  | .other => []
where
  /-- the loop (866-888) -/
  savedArgs : List TArg → List ConstArg
    | [] => []
    | a :: as => savedArg a ++ savedArgs as

/-- What `TraverseDecl` records before it visits the children of a declaration
(mutate_visitor.cc 117-156), and `TraverseVarDecl` (166-190). -/
def noteDecl (l : Lang) (d : Decl) (st : VState) : VState :=
  match d.kind with
  | .staticAssert a => { st with asserts := st.asserts ++ [a] }
  | .func _ placeholder =>
    { st with prelude := if st.prelude.isSome then st.prelude else placeholder }
  | .field constArray dims =>
    { st with arrays := st.arrays ++ if l.cpp && constArray then dims else [] }
  | .var v =>
    { st with
      args := st.args ++ v.targs.flatMap savedArg
      arrays := st.arrays ++ if l.cpp && v.constArray then v.dims else [] }
  | _ => st

/-- The context in which the children of a declaration are visited, if they are:
`TraverseDecl` (mutate_visitor.cc 101-109, 117-164; a translation unit does not
count as an enclosing declaration), `TraverseVarDecl` (191-208),
`TraverseParmVarDecl` (359-365). -/
def declCtx (l : Lang) (c : Ctx) (d : Decl) : Option Ctx :=
  match d.kind with
  | .tu => some c
  | .staticAssert _ => none
  | .func constexpr _ => if constexpr then none else some (c.push d)
  | .field _ _ => some (c.push d)
  | .var v =>
    if v.constexpr || v.constInit then none
    else if !l.cpp && v.staticLocal then none
    else some ((c.push d).push d)
  | .varLike _ => some (c.push d)
  | .parm => none
  | .other => some (c.push d)

/-- `VisitVarDecl` (mutate_visitor.cc 726-729), called after the children
(post-order, mutate_visitor.h 103). -/
def visitDecl (d : Decl) (st : VState) : VState :=
  match d.kind with
  | .var v => { st with locs := v.loc :: st.locs }
  | .varLike loc => { st with locs := loc :: st.locs }
  | _ => st

/-- `TraverseDecl` after the range check (mutate_visitor.cc 117-164); `kids`
traverses the children. -/
def declStep (l : Lang) (c : Ctx) (d : Decl) (kids : Ctx → VState → VState) (st : VState) : VState :=
  match declCtx l c d with
  | none => noteDecl l d st
  | some c' => visitDecl d (kids c' (noteDecl l d st))

/-- The kinds of other nodes that are not traversed (mutate_visitor.cc
301-357). -/
def skipOther (l : Lang) : OtherKind → Bool
  | .constArrayType | .depArrayType | .templateArg | .lambdaCapture => true
  | .varArrayType => l.cpp
  | .other => false

mutual
/-- The traversal: `TraverseDecl` (mutate_visitor.cc 95-164; the translation unit
is not checked for its range, 101-109), `TraverseStmt` (211-292), and the
traversal of other nodes (301-357). -/
def traverse (l : Lang) (opt : Bool) (c : Ctx) : Node → VState → VState
  | .decl d ks, st =>
    if !d.isTU && !d.range.isSome then st
    else declStep l c d (fun c st => traverseL l opt c (.decl d) 0 ks st) st
  | .stmt s ks, st =>
    stmtStep opt c s ks (fun c st => traverseL l opt c (.stmt s) 0 ks st)
      (fun c st => traverseLast l opt c (.stmt s) 0 ks st)
      (fun c st => blockItems l opt c (.stmt s) 0 ks st) st
  | .other k ks, st =>
    if skipOther l k then st else traverseL l opt c (.other k) 0 ks st

/-- All children, from the `i`-th on. (clang calls mutate_visitor.cc 95-357 for them
in turn.) -/
def traverseL (l : Lang) (opt : Bool) (c : Ctx) (n : NodeInfo) : Nat → List Node → VState → VState
  | _, [], st => st
  | i, k :: ks, st => traverseL l opt c n (i + 1) ks (traverse l opt (c.enter n i) k st)

/-- The last child (mutate_visitor.cc 294-299). -/
def traverseLast (l : Lang) (opt : Bool) (c : Ctx) (n : NodeInfo) : Nat → List Node → VState → VState
  | _, [], st => st
  | i, [k], st => traverse l opt (c.enter n i) k st
  | i, _ :: ks, st => traverseLast l opt c n (i + 1) ks st

/-- The loop of `TraverseCompoundStmt` (mutate_visitor.cc 662-720). -/
def blockItems (l : Lang) (opt : Bool) (c : Ctx) (n : NodeInfo) : Nat → List Node → VState → VState
  | _, [], st => st
  | i, k :: ks, st => blockItems l opt c n (i + 1) ks (blockItem l opt (c.enter n i) k st)

/-- An item of a compound statement (mutate_visitor.cc 674-717): the labels of
switch cases are skipped (674-677). -/
def blockItem (l : Lang) (opt : Bool) (c : Ctx) : Node → VState → VState
  | .stmt s ks, st =>
    match s.kind with
    | .case_ | .default_ => blockLast l opt c (.stmt s) 0 ks st
    | _ =>
      if pointless opt s then st
      else
        st.inChild fun st =>
          (stmtStep opt c s ks (fun c st => traverseL l opt c (.stmt s) 0 ks st)
            (fun c st => traverseLast l opt c (.stmt s) 0 ks st)
            (fun c st => blockItems l opt c (.stmt s) 0 ks st) st).add c.pos (removal opt s)
  | _, st => st

/-- The statement of a switch case (mutate_visitor.cc 675-677). -/
def blockLast (l : Lang) (opt : Bool) (c : Ctx) (n : NodeInfo) : Nat → List Node → VState → VState
  | _, [], st => st
  | i, [k], st => blockItem l opt (c.enter n i) k st
  | i, _ :: ks, st => blockLast l opt c n (i + 1) ks st
end

/-- The state of the visitor at the beginning (mutate_visitor.cc 55-61). -/
def VState.start : VState := ⟨.node [] [], [], none, [], [], []⟩

/-- The visitor run on a translation unit (mutate_visitor.cc 95-109;
mutate_ast_consumer.cc 95), before `TidyUp`. -/
def visitTU (l : Lang) (opt : Bool) (n : Node) : VState :=
  traverse l opt ⟨[], [], []⟩ n VState.start

end Dredd
