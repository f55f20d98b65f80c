/-
C60: the mutation information file, read with the help of dredd.proto alone, says
for every point which operator is there, where it is, and what each mutant does.
-/
import Verif.Spec.Each
import Verif.Spec.Proto
import Verif.Props.C06
import Verif.Props.C08
import Verif.Props.C41

namespace Dredd
open Proto

/-! ### Statement -/

/-- A range with its text. -/
def RangeInfo.region (r : RangeInfo) : Region :=
  ⟨(r.start.line, r.start.column), (r.fin.line, r.fin.column), r.snippet⟩

/-- An action on an expression as a change of the program, which depends on the
language: truth values are numbers in C. -/
def Proto.ExprAction.Means (cpp : Bool) : ExprAction → EChange → Prop
  | .insert o, c => c = .insert o
  | .number n fl, c =>
    ∃ k : Lit, c = .const k ∧
      k.str = (if n < 0 then t!"-" else []) ++ natDec n.natAbs ++ (if fl then t!".0" else [])
  | .truth b, c =>
    ∃ k : Lit, c = .const k ∧
      k.str = if cpp then (if b then t!"true" else t!"false") else (if b then t!"1" else t!"0")

/-- The report describes this point: its operator and ranges, and for each mutant
of the group its id and what it does. -/
def Mutation.Says (cpp : Bool) : Mutation → Group → Report → Prop
  | .stmt s, .removeStmt id _, r => r = .stmt id s.info.region
  | .expr s, .replaceExpr _ is, r =>
    ∃ acts, r = .expr s.info.region acts ∧ acts.map (·.1) = is.map (·.1) ∧
      ∀ p ∈ (acts.map (·.2)).zip (is.map (·.2)), p.1.Means cpp (p.2.change cpp)
  | .bin s, .replaceBin _ _ _ _ is, r =>
    r = .bin s.op s.info.region s.lhsInfo.region s.rhsInfo.region
      (is.map fun i => (i.1, i.2.change))
  | .un s, .replaceUn _ _ _ is, r =>
    r = .un s.op s.info.region s.subInfo.region (is.map fun i => (i.1, i.2.change))
  | _, _, _ => False

/-! ### Names -/

theorem binAction_name (a : BAct) : binAction a.name = some a.change := by
  cases a <;> decide +kernel

theorem unAction_name (a : UAct) : unAction a.name = some a.change := by
  cases a <;> decide +kernel

/-- The action on an expression of a name. -/
def EAct.said (a : EAct) : ExprAction := (exprAction a.name).getD (.truth true)

theorem exprAction_name (a : EAct) : exprAction a.name = some a.said := by
  cases a <;> decide +kernel

theorem EAct.said_means (a : EAct) (cpp : Bool) : a.said.Means cpp (a.change cpp) := by
  cases a <;> first | exact (rfl : _ = _) | (cases cpp <;> exact ⟨_, rfl, by decide +kernel⟩)

theorem binNamed_proto (op : BOp) (h : op.proto?.isSome = true) :
    binNamed op.proto.name = some op := by
  cases op <;> first | (exact absurd h (by decide)) | decide +kernel

theorem unNamed_proto (op : UOp) (h : op.proto?.isSome = true) :
    unNamed op.proto.name = some op := by
  cases op <;> first | (exact absurd h (by decide)) | decide +kernel

/-! ### Reading -/

theorem allSome_map {α β γ : Type} (f : α → Option β) (g : γ → α) (h : γ → β) (l : List γ)
    (hf : ∀ x ∈ l, f (g x) = some (h x)) : allSome ((l.map g).map f) = some (l.map h) := by
  induction l with
  | nil => rfl
  | cons x xs ih =>
    simp only [List.map_cons, allSome, hf x (by simp), Option.bind_some,
      ih fun y hy => hf y (by simp [hy]), Option.map_some]

theorem allSome_each {α β : Type} (f : α → Option β) (R : α → β → Prop) (l : List α)
    (hf : ∀ x ∈ l, ∃ y, f x = some y ∧ R x y) : ∃ ys, allSome (l.map f) = some ys ∧ Each R l ys := by
  induction l with
  | nil => exact ⟨[], rfl, .nil⟩
  | cons x xs ih =>
    obtain ⟨y, h1, h2⟩ := hf x (by simp)
    obtain ⟨ys, h3, h4⟩ := ih fun z hz => hf z (by simp [hz])
    exact ⟨y :: ys, by simp [allSome, h1, h3], .cons h2 h4⟩

theorem msg_read (n : Nat) (m : Text) (fs : List Field) (kvs : List (Text × Json))
    (vs : List (List (Text × Val))) (hm : look m messages = some fs) (hk : keysOk fs kvs = true)
    (hv : Each (fun f v => readField (readVal n) kvs f = some v) fs vs) :
    readVal (n + 1) (.message m) (.obj kvs) = some (.msg vs.flatten) := by
  have : allSome (fs.map (readField (readVal n) kvs)) = some vs := by
    clear hm hk
    induction hv with
    | nil => rfl
    | cons h _ ih => simp [allSome, h, ih]
  simp only [readVal, hm, hk, this, if_true, Option.map_some]

/-- The message of an instance. -/
def instVal (name : Text) (id : Nat) : Val :=
  .msg [(t!"action", .enumerator name), (t!"mutation_id", .num id)]

theorem inst_read (n : Nat) (m e : Text) (names : List Text) (name : Text) (id : Nat) (z : Bool)
    (hm : look m messages = some [⟨t!"action", .enum e, false⟩, ⟨t!"mutation_id", .number, false⟩])
    (he : look e enums = some names) (hn : names.contains name = true) :
    readVal (n + 2) (.message m) (instToJson true name z id) = some (instVal name id) := by
  have h1 : readVal (n + 1) (.enum e) (.str name) = some (.enumerator name) := by
    simp only [readVal, he, hn, if_true]
  have h2 : readField (readVal (n + 1))
      [(t!"action", .str name), (t!"mutationId", .num id)] ⟨t!"action", .enum e, false⟩
      = some [(t!"action", .enumerator name)] := by
    show ((readVal (n + 1) (.enum e) (.str name)).map fun v => [(t!"action", v)]) = _
    rw [h1]; rfl
  exact msg_read (n + 1) m _ [(t!"action", .str name), (t!"mutationId", .num id)]
    [[(t!"action", .enumerator name)], [(t!"mutation_id", .num id)]] hm rfl
    (.cons h2 (.cons rfl .nil))

theorem mutants_read {α : Type} (v : Val) (act : Text → Option α) (is : List (Nat × Text))
    (as : List (Nat × α)) (hv : v.get t!"instances" = some (.list (is.map fun i => instVal i.2 i.1)))
    (h : Each (fun i a => a.1 = i.1 ∧ act i.2 = some a.2) is as) : mutants v act = some as := by
  unfold mutants
  rw [hv]
  simp only [Option.bind_some, Val.items]
  clear hv
  induction h with
  | nil => rfl
  | @cons i a is as h1 h2 ih =>
    simp only [List.map_cons, allSome]
    rw [ih]
    obtain ⟨h3, h4⟩ := h1
    have : ((instVal i.2 i.1).get t!"mutation_id").bind Val.nat = some i.1 := by
      show Val.nat (.num i.1) = _
      simp [Val.nat]
    rw [this]
    have : ((instVal i.2 i.1).get t!"action").bind Val.name = some i.2 := rfl
    rw [this]
    simp only [Option.bind_some, h4, Option.map_some, ← h3]

theorem each_map {α β γ : Type} (R : β → γ → Prop) (f : α → β) (g : α → γ) (l : List α)
    (h : ∀ x, R (f x) (g x)) : Each R (l.map f) (l.map g) := by
  induction l with
  | nil => exact .nil
  | cons x xs ih => exact .cons (h x) ih

/-- The message of a location. -/
def locVal (l : Loc) : Val := .msg [(t!"line", .num l.line), (t!"column", .num l.column)]

theorem loc_read (n : Nat) (l : Loc) :
    readVal (n + 2) (.message t!"SourceLocation") (l.toJson true) = some (locVal l) := rfl

theorem location_read (v : Val) (k : Text) (l : Loc) (h : v.get k = some (locVal l)) :
    location v k = some (l.line, l.column) := by
  unfold location
  rw [h]
  have h1 : ((locVal l).get t!"line").bind Val.nat = some l.line := by
    show Val.nat (.num l.line) = _
    simp [Val.nat]
  have h2 : ((locVal l).get t!"column").bind Val.nat = some l.column := by
    show Val.nat (.num l.column) = _
    simp [Val.nat]
  simp only [Option.bind_some, h1, h2, Option.map_some]

theorem region_read (v : Val) (b e t : Text) (r : RangeInfo) (hb : v.get b = some (locVal r.start))
    (he : v.get e = some (locVal r.fin)) (ht : v.get t = some (.str r.snippet)) :
    Proto.region v b e t = some r.region := by
  unfold Proto.region
  rw [location_read _ _ _ hb, location_read _ _ _ he, ht]
  rfl

/-- How a repeated field of instances is read. -/
theorem insts_read {α : Type} (n : Nat) (m e : Text) (names : List Text) (nm : α → Text)
    (j : Nat × α → Json) (z : α → Bool) (is : List (Nat × α))
    (hj : ∀ i, j i = instToJson true (nm i.2) (z i.2) i.1)
    (hm : look m messages = some [⟨t!"action", .enum e, false⟩, ⟨t!"mutation_id", .number, false⟩])
    (he : look e enums = some names) (hn : ∀ a, names.contains (nm a) = true) :
    allSome ((is.map j).map (readVal (n + 2) (.message m)))
      = some ((is.map fun i => (i.1, nm i.2)).map fun i : Nat × Text => instVal i.2 i.1) := by
  rw [List.map_map (f := fun i : Nat × α => (i.1, nm i.2))]
  exact allSome_map _ _ _ _ fun i _ => by
    rw [hj]
    exact inst_read n m e names _ _ _ hm he (hn i.2)

/-- Reading of a group. -/
def readGroup (j : Json) : Option Report := (readVal 4 (.message t!"MutationGroup") j).bind report

/-- The number message. -/
theorem nat_read (n : Nat) : Val.nat (.num n) = some n := by simp [Val.nat]

theorem report_expr (g : Val) : report (.msg [(t!"replace_expr", g)]) =
    (Proto.region g t!"start" t!"end" t!"snippet").bind fun r =>
      (mutants g exprAction).map fun is => .expr r is := rfl

theorem report_bin (g : Val) : report (.msg [(t!"replace_binary_operator", g)]) =
    (((g.get t!"operator").bind Val.name).bind binNamed).bind fun op =>
      (Proto.region g t!"expr_start" t!"expr_end" t!"expr_snippet").bind fun r =>
      (Proto.region g t!"lhs_start" t!"lhs_end" t!"lhs_snippet").bind fun r1 =>
      (Proto.region g t!"rhs_start" t!"rhs_end" t!"rhs_snippet").bind fun r2 =>
        (mutants g binAction).map fun is => .bin op r r1 r2 is := rfl

theorem report_un (g : Val) : report (.msg [(t!"replace_unary_operator", g)]) =
    (((g.get t!"operator").bind Val.name).bind unNamed).bind fun op =>
      (Proto.region g t!"expr_start" t!"expr_end" t!"expr_snippet").bind fun r =>
      (Proto.region g t!"operand_start" t!"operand_end" t!"operand_snippet").bind fun r1 =>
        (mutants g unAction).map fun is => .un op r r1 is := rfl

/-- The report on a statement. -/
theorem group_stmt (id : Nat) (r : RangeInfo) :
    readGroup ((Group.removeStmt id r).toJson true) = some (.stmt id r.region) := by
  have h : readVal 4 (.message t!"MutationGroup") ((Group.removeStmt id r).toJson true) =
      some (.msg [(t!"remove_stmt", .msg [(t!"mutation_id", .num id), (t!"start", locVal r.start),
        (t!"end", locVal r.fin), (t!"snippet", .str r.snippet)])]) := rfl
  unfold readGroup
  rw [h]
  simp only [Option.bind_some, report]
  rw [if_pos trivial, region_read _ _ _ _ r rfl rfl rfl]
  show (Val.nat (.num id)).bind _ = _
  rw [nat_read]
  rfl

/-- The report on an expression. -/
theorem group_expr (r : RangeInfo) (is : List (Nat × EAct)) :
    readGroup ((Group.replaceExpr r is).toJson true) =
      some (.expr r.region (is.map fun i => (i.1, i.2.said))) := by
  have hi := insts_read 0 t!"MutationReplaceExprInstance" t!"MutationReplaceExprAction" _ EAct.name
    (EAct.instJson true) (· == .InsertPreInc) is (fun _ => rfl) rfl rfl
    (by intro a; cases a <;> decide +kernel)
  generalize hI : (is.map fun i => (i.1, EAct.name i.2)).map
    (fun i : Nat × Text => instVal i.2 i.1) = I at hi
  let kvs : List (Text × Json) := [(t!"start", r.start.toJson true), (t!"end", r.fin.toJson true),
    (t!"snippet", .str r.snippet), (t!"instances", .arr (is.map (EAct.instJson true)))]
  have hf : readField (readVal 2) kvs
      ⟨t!"instances", .message t!"MutationReplaceExprInstance", true⟩
      = some [(t!"instances", .list I)] := by
    show (allSome ((is.map (EAct.instJson true)).map _)).map _ = _
    rw [hi]
    rfl
  have h1 := msg_read 2 t!"MutationReplaceExpr" _ kvs
    [[(t!"start", locVal r.start)], [(t!"end", locVal r.fin)], [(t!"snippet", .str r.snippet)],
     [(t!"instances", .list I)]] rfl rfl
    (.cons rfl (.cons rfl (.cons rfl (.cons hf .nil))))
  have h2 := msg_read 3 t!"MutationGroup" _ [(t!"replaceExpr", .obj kvs)]
    [[], [(t!"replace_expr", _)], [], []] rfl rfl
    (.cons rfl (.cons (by
      show (readVal 3 (.message t!"MutationReplaceExpr") (.obj kvs)).map _ = _
      rw [h1]
      rfl) (.cons rfl (.cons rfl .nil))))
  unfold readGroup
  rw [show (Group.replaceExpr r is).toJson true = .obj [(t!"replaceExpr", .obj kvs)] from rfl, h2]
  simp only [List.flatten_cons, List.flatten_nil, List.nil_append, List.append_nil, List.singleton_append,
    Option.bind_some, report_expr]
  rw [region_read _ _ _ _ r rfl rfl rfl]
  rw [mutants_read _ exprAction (is.map fun i => (i.1, EAct.name i.2)) (is.map fun i => (i.1, i.2.said))
    (by rw [hI]; rfl) (each_map _ _ _ _ fun i => ⟨rfl, exprAction_name _⟩)]
  rfl

/-- The report on a binary operator. -/
theorem group_bin (p : PBOp) (op : BOp) (hn : binNamed p.name = some op) (r r1 r2 : RangeInfo)
    (is : List (Nat × BAct)) :
    readGroup ((Group.replaceBin p r r1 r2 is).toJson true) =
      some (.bin op r.region r1.region r2.region (is.map fun i => (i.1, i.2.change))) := by
  have hc : ((look t!"BinaryOperator" enums).getD []).contains p.name = true := by
    cases p <;> decide +kernel
  have hi := insts_read 0 t!"MutationReplaceBinaryOperatorInstance"
    t!"MutationReplaceBinaryOperatorAction" _ BAct.name
    (BAct.instJson true) (· == .ReplaceWithLHS) is (fun _ => rfl) rfl rfl
    (by intro a; cases a <;> decide +kernel)
  generalize hI : (is.map fun i => (i.1, BAct.name i.2)).map
    (fun i : Nat × Text => instVal i.2 i.1) = I at hi
  let kvs : List (Text × Json) :=
    [(t!"exprStart", r.start.toJson true), (t!"exprEnd", r.fin.toJson true),
     (t!"lhsStart", r1.start.toJson true), (t!"lhsEnd", r1.fin.toJson true),
     (t!"rhsStart", r2.start.toJson true), (t!"rhsEnd", r2.fin.toJson true),
     (t!"exprSnippet", .str r.snippet), (t!"lhsSnippet", .str r1.snippet),
     (t!"rhsSnippet", .str r2.snippet), (t!"operator", .str p.name),
     (t!"instances", .arr (is.map (BAct.instJson true)))]
  have ho : readField (readVal 2) kvs ⟨t!"operator", .enum t!"BinaryOperator", false⟩
      = some [(t!"operator", .enumerator p.name)] := by
    show (readVal 2 (.enum t!"BinaryOperator") (.str p.name)).map _ = _
    have : readVal 2 (.enum t!"BinaryOperator") (.str p.name) = some (.enumerator p.name) := by
      show (if ((look t!"BinaryOperator" enums).getD []).contains p.name then _ else _) = _
      rw [hc]
      rfl
    rw [this]
    rfl
  have hf : readField (readVal 2) kvs
      ⟨t!"instances", .message t!"MutationReplaceBinaryOperatorInstance", true⟩
      = some [(t!"instances", .list I)] := by
    show (allSome ((is.map (BAct.instJson true)).map _)).map _ = _
    rw [hi]
    rfl
  have h1 := msg_read 2 t!"MutationReplaceBinaryOperator" _ kvs
    [[(t!"expr_start", locVal r.start)], [(t!"expr_end", locVal r.fin)],
     [(t!"lhs_start", locVal r1.start)], [(t!"lhs_end", locVal r1.fin)],
     [(t!"rhs_start", locVal r2.start)], [(t!"rhs_end", locVal r2.fin)],
     [(t!"expr_snippet", .str r.snippet)], [(t!"lhs_snippet", .str r1.snippet)],
     [(t!"rhs_snippet", .str r2.snippet)], [(t!"operator", .enumerator p.name)],
     [(t!"instances", .list I)]] rfl rfl
    (.cons rfl (.cons rfl (.cons rfl (.cons rfl (.cons rfl (.cons rfl (.cons rfl (.cons rfl
      (.cons rfl (.cons ho (.cons hf .nil)))))))))))
  have h2 := msg_read 3 t!"MutationGroup" _ [(t!"replaceBinaryOperator", .obj kvs)]
    [[], [], [(t!"replace_binary_operator", _)], []] rfl rfl
    (.cons rfl (.cons rfl (.cons (by
      show (readVal 3 (.message t!"MutationReplaceBinaryOperator") (.obj kvs)).map _ = _
      rw [h1]
      rfl) (.cons rfl .nil))))
  unfold readGroup
  rw [show (Group.replaceBin p r r1 r2 is).toJson true
    = .obj [(t!"replaceBinaryOperator", .obj kvs)] from rfl, h2]
  simp only [List.flatten_cons, List.flatten_nil, List.nil_append, List.append_nil,
    List.singleton_append, Option.bind_some, report_bin]
  rw [region_read _ _ _ _ r rfl rfl rfl, region_read _ _ _ _ r1 rfl rfl rfl,
    region_read _ _ _ _ r2 rfl rfl rfl]
  rw [mutants_read _ binAction (is.map fun i => (i.1, BAct.name i.2)) (is.map fun i => (i.1, i.2.change))
    (by rw [hI]; rfl) (each_map _ _ _ _ fun i => ⟨rfl, binAction_name _⟩)]
  show (binNamed p.name).bind _ = _
  rw [hn]
  rfl

/-- The report on a unary operator. -/
theorem group_un (p : PUOp) (op : UOp) (hn : unNamed p.name = some op) (r r1 : RangeInfo)
    (is : List (Nat × UAct)) :
    readGroup ((Group.replaceUn p r r1 is).toJson true) =
      some (.un op r.region r1.region (is.map fun i => (i.1, i.2.change))) := by
  have hc : ((look t!"UnaryOperator" enums).getD []).contains p.name = true := by
    cases p <;> decide +kernel
  have hi := insts_read 0 t!"MutationReplaceUnaryOperatorInstance"
    t!"MutationReplaceUnaryOperatorAction" _ UAct.name
    (UAct.instJson true) (· == .ReplaceWithOperand) is (fun _ => rfl) rfl rfl
    (by intro a; cases a <;> decide +kernel)
  generalize hI : (is.map fun i => (i.1, UAct.name i.2)).map
    (fun i : Nat × Text => instVal i.2 i.1) = I at hi
  let kvs : List (Text × Json) :=
    [(t!"exprStart", r.start.toJson true), (t!"exprEnd", r.fin.toJson true),
     (t!"operandStart", r1.start.toJson true), (t!"operandEnd", r1.fin.toJson true),
     (t!"exprSnippet", .str r.snippet), (t!"operandSnippet", .str r1.snippet),
     (t!"operator", .str p.name), (t!"instances", .arr (is.map (UAct.instJson true)))]
  have ho : readField (readVal 2) kvs ⟨t!"operator", .enum t!"UnaryOperator", false⟩
      = some [(t!"operator", .enumerator p.name)] := by
    show (readVal 2 (.enum t!"UnaryOperator") (.str p.name)).map _ = _
    have : readVal 2 (.enum t!"UnaryOperator") (.str p.name) = some (.enumerator p.name) := by
      show (if ((look t!"UnaryOperator" enums).getD []).contains p.name then _ else _) = _
      rw [hc]
      rfl
    rw [this]
    rfl
  have hf : readField (readVal 2) kvs
      ⟨t!"instances", .message t!"MutationReplaceUnaryOperatorInstance", true⟩
      = some [(t!"instances", .list I)] := by
    show (allSome ((is.map (UAct.instJson true)).map _)).map _ = _
    rw [hi]
    rfl
  have h1 := msg_read 2 t!"MutationReplaceUnaryOperator" _ kvs
    [[(t!"expr_start", locVal r.start)], [(t!"expr_end", locVal r.fin)],
     [(t!"operand_start", locVal r1.start)], [(t!"operand_end", locVal r1.fin)],
     [(t!"expr_snippet", .str r.snippet)], [(t!"operand_snippet", .str r1.snippet)],
     [(t!"operator", .enumerator p.name)],
     [(t!"instances", .list I)]] rfl rfl
    (.cons rfl (.cons rfl (.cons rfl (.cons rfl (.cons rfl (.cons rfl
      (.cons ho (.cons hf .nil))))))))
  have h2 := msg_read 3 t!"MutationGroup" _ [(t!"replaceUnaryOperator", .obj kvs)]
    [[], [], [], [(t!"replace_unary_operator", _)]] rfl rfl
    (.cons rfl (.cons rfl (.cons rfl (.cons (by
      show (readVal 3 (.message t!"MutationReplaceUnaryOperator") (.obj kvs)).map _ = _
      rw [h1]
      rfl) .nil))))
  unfold readGroup
  rw [show (Group.replaceUn p r r1 is).toJson true
    = .obj [(t!"replaceUnaryOperator", .obj kvs)] from rfl, h2]
  simp only [List.flatten_cons, List.flatten_nil, List.nil_append, List.append_nil,
    List.singleton_append, Option.bind_some, report_un]
  rw [region_read _ _ _ _ r rfl rfl rfl, region_read _ _ _ _ r1 rfl rfl rfl]
  rw [mutants_read _ unAction (is.map fun i => (i.1, UAct.name i.2)) (is.map fun i => (i.1, i.2.change))
    (by rw [hI]; rfl) (each_map _ _ _ _ fun i => ⟨rfl, unAction_name _⟩)]
  show (unNamed p.name).bind _ = _
  rw [hn]
  rfl

/-- The report on a point. -/
theorem C60_point (m : Mutation) (l : Lang) (o : Options) (first id : Nat)
    (hm : m.Supported o.optimise) :
    ∃ r, readGroup ((m.apply l o first id).group.toJson true) = some r ∧
      m.Says l.cpp (m.apply l o first id).group r := by
  rw [Mutation.apply_group]
  cases m with
  | stmt s => exact ⟨_, group_stmt id s.info, rfl⟩
  | expr s =>
    refine ⟨_, group_expr s.info _, _, rfl, ?_, ?_⟩
    · rw [List.map_map]; rfl
    · intro p hp
      simp only [List.map_map] at hp
      rw [List.zip_map'] at hp
      obtain ⟨i, -, rfl⟩ := List.mem_map.mp hp
      exact EAct.said_means _ _
  | un s => exact ⟨_, group_un _ s.op (unNamed_proto _ hm.2.2.1) _ _ _, rfl⟩
  | bin s => exact ⟨_, group_bin _ s.op (binNamed_proto _ hm.2.2.1) _ _ _ _, rfl⟩

/-! ### Whole files -/

theorem group_read (g : Group) : ∃ r, readGroup (g.toJson true) = some r := by
  cases g with
  | removeStmt id r => exact ⟨_, group_stmt id r⟩
  | replaceExpr r is => exact ⟨_, group_expr r is⟩
  | replaceBin p r r1 r2 is =>
    obtain ⟨op, h⟩ : ∃ op, binNamed p.name = some op := by
      have : (binNamed p.name).isSome = true := by cases p <;> decide +kernel
      exact Option.isSome_iff_exists.mp this
    exact ⟨_, group_bin p op h r r1 r2 is⟩
  | replaceUn p r r1 is =>
    obtain ⟨op, h⟩ : ∃ op, unNamed p.name = some op := by
      have : (unNamed p.name).isSome = true := by cases p <;> decide +kernel
      exact Option.isSome_iff_exists.mp this
    exact ⟨_, group_un p op h r r1 is⟩

/-- What the written form of a group says. -/
def Group.said (g : Group) : Report :=
  (readGroup (g.toJson true)).getD (.stmt 0 ⟨(0, 0), (0, 0), []⟩)

theorem Group.said_eq (g : Group) : readGroup (g.toJson true) = some g.said := by
  obtain ⟨r, h⟩ := group_read g
  simp [Group.said, h]

/-- What the written form of a node says. -/
def PNode.said (n : PNode) : ReportNode := ⟨n.groups.map Group.said, n.children⟩

/-- The message of a group. -/
def Group.val (g : Group) : Val :=
  (readVal 4 (.message t!"MutationGroup") (g.toJson true)).getD (.num 0)

theorem Group.val_eq (g : Group) :
    readVal 4 (.message t!"MutationGroup") (g.toJson true) = some g.val ∧
      report g.val = some g.said := by
  have h := g.said_eq
  unfold readGroup at h
  cases hv : readVal 4 (.message t!"MutationGroup") (g.toJson true) with
  | none => rw [hv] at h; cases h
  | some v =>
    rw [hv] at h
    refine ⟨by simp [Group.val, hv], ?_⟩
    simpa [Group.val, hv] using h

/-- The message of a node. -/
def PNode.val (n : PNode) : Val :=
  .msg [(t!"mutation_groups", .list (n.groups.map Group.val)),
    (t!"children", .list (n.children.map fun c => .num (c : Nat)))]

theorem node_read (n : PNode) :
    readVal 5 (.message t!"MutationTreeNode") (n.toJson true) = some n.val ∧
      node n.val = some n.said := by
  constructor
  · refine msg_read 4 t!"MutationTreeNode" _
      [(t!"mutationGroups", .arr (n.groups.map (Group.toJson true))),
       (t!"children", .arr (n.children.map fun (c : Nat) => .num c))]
      [[(t!"mutation_groups", .list (n.groups.map Group.val))],
       [(t!"children", .list (n.children.map fun c => .num (c : Nat)))]] rfl rfl
      (.cons ?_ (.cons ?_ .nil))
    · show (allSome ((n.groups.map (Group.toJson true)).map _)).map _ = _
      rw [allSome_map _ _ Group.val _ fun g _ => (Group.val_eq g).1]
      rfl
    · show (allSome ((n.children.map fun (c : Nat) => Json.num c).map _)).map _ = _
      rw [allSome_map (readVal 4 .number) (fun c : Nat => Json.num c) (fun c : Nat => Val.num c) _
        fun _ _ => rfl]
      rfl
  · show ((allSome ((n.groups.map Group.val).map report)).bind fun gs =>
      (allSome ((n.children.map fun c => Val.num (c : Nat)).map Val.nat)).map fun cs =>
        (⟨gs, cs⟩ : ReportNode)) = _
    rw [allSome_map _ _ Group.said _ fun g _ => (Group.val_eq g).2,
      allSome_map _ _ id _ fun c _ => nat_read c]
    simp [PNode.said]

/-- What the written form of the entry of a file says. -/
def FileInfo.said (f : FileInfo) : FileReport := ⟨f.filename, f.nodes.map PNode.said⟩

/-- The message of a file. -/
def FileInfo.val (f : FileInfo) : Val :=
  .msg [(t!"filename", .str f.filename), (t!"mutation_tree", .list (f.nodes.map PNode.val))]

theorem file_read (f : FileInfo) :
    readVal 6 (.message t!"MutationInfoForFile") (f.toJson true) = some f.val ∧
      Proto.file f.val = some f.said := by
  constructor
  · refine msg_read 5 t!"MutationInfoForFile" _
      [(t!"filename", .str f.filename), (t!"mutationTree", .arr (f.nodes.map (PNode.toJson true)))]
      [[(t!"filename", .str f.filename)], [(t!"mutation_tree", .list (f.nodes.map PNode.val))]]
      rfl rfl (.cons rfl (.cons ?_ .nil))
    show (allSome ((f.nodes.map (PNode.toJson true)).map _)).map _ = _
    rw [allSome_map _ _ PNode.val _ fun n _ => (node_read n).1]
    rfl
  · show ((allSome ((f.nodes.map PNode.val).map node)).map fun ns =>
      (⟨f.filename, ns⟩ : FileReport)) = _
    rw [allSome_map _ _ PNode.said _ fun n _ => (node_read n).2]
    rfl

/-- Whatever is written can be read. -/
theorem info_read (fs : List FileInfo) : readInfo (infoFile fs) = some (fs.map FileInfo.said) := by
  have h : message (infoFile fs) = some (.msg [(t!"info_for_files", .list (fs.map FileInfo.val))]) := by
    refine msg_read 6 t!"MutationInfo" _ [(t!"infoForFiles", .arr (fs.map (FileInfo.toJson true)))]
      [[(t!"info_for_files", .list (fs.map FileInfo.val))]] rfl rfl (.cons ?_ .nil)
    show (allSome ((fs.map (FileInfo.toJson true)).map _)).map _ = _
    rw [allSome_map _ _ FileInfo.val _ fun f _ => (file_read f).1]
    rfl
  unfold readInfo
  rw [h]
  show allSome ((fs.map FileInfo.val).map Proto.file) = _
  exact allSome_map _ _ FileInfo.said _ fun f _ => (file_read f).2

mutual
theorem isTree_said (nodes : List PNode) : (i : Nat) → (t : MTree Group) → Encodes nodes i t →
    IsTree (nodes.map PNode.said) i (t.mapNodes fun gs => gs.map Group.said)
  | i, .node gs ks, h => by
    obtain ⟨n, hn, hg, hk⟩ := h
    exact ⟨n.said, by simp [hn], by simp [PNode.said, hg], areTrees_said nodes n.children ks hk⟩
theorem areTrees_said (nodes : List PNode) : (is : List Nat) → (ts : List (MTree Group)) →
    EncodesL nodes is ts →
    AreTrees (nodes.map PNode.said) is (MTree.mapNodesL (fun gs => gs.map Group.said) ts)
  | [], [], _ => trivial
  | c :: cs, k :: ks, h => ⟨isTree_said nodes c k h.1, areTrees_said nodes cs ks h.2⟩
  | [], _ :: _, h => h.elim
  | _ :: _, [], h => h.elim
end

mutual
theorem mapNodes_mapNodes {α β γ : Type} (f : List α → List β) (g : List β → List γ) :
    (t : MTree α) → (t.mapNodes f).mapNodes g = t.mapNodes fun x => g (f x)
  | .node ms ks => by
    simp only [MTree.mapNodes]
    rw [mapNodesL_mapNodesL f g ks]
theorem mapNodesL_mapNodesL {α β γ : Type} (f : List α → List β) (g : List β → List γ) :
    (ts : List (MTree α)) →
    MTree.mapNodesL g (MTree.mapNodesL f ts) = MTree.mapNodesL (fun x => g (f x)) ts
  | [] => rfl
  | t :: ts => by
    simp only [MTree.mapNodesL]
    rw [mapNodes_mapNodes f g t, mapNodesL_mapNodesL f g ts]
end

mutual
theorem mapNodes_post {α β : Type} (f : α → β) :
    (t : MTree α) → (t.mapNodes fun x => x.map f).post = t.post.map f
  | .node ms ks => by
    simp only [MTree.mapNodes, MTree.post, List.map_append]
    rw [mapNodesL_postL f ks]
theorem mapNodesL_postL {α β : Type} (f : α → β) :
    (ts : List (MTree α)) →
    MTree.postL (MTree.mapNodesL (fun x => x.map f) ts) = (MTree.postL ts).map f
  | [] => rfl
  | t :: ts => by
    simp only [MTree.mapNodesL, MTree.postL, List.map_append]
    rw [mapNodes_post f t, mapNodesL_postL f ts]
end

/-- The entry of a mutated file in the mutation information, read according to
dredd.proto, is a tree with a report on each point of the (simplified) tree of
mutations that has any mutant, and each report gives the operator, the ranges, the
ids and what each mutant does. -/
theorem C60 (o : Options) (pre suf : List SourceFile) (f : SourceFile)
    (hnew : ∀ g ∈ pre, g.name ≠ f.name)
    (hmut : (runTool o true (pre ++ [f])).nextId ≠ (runTool o true pre).nextId)
    (hs : ∀ m ∈ f.tree.post, m.Supported o.optimise) :
    ∃ (files : List FileReport) (nodes : List ReportNode) (tt : MTree (Nat × Mutation × Report)),
      readInfo (infoFile (runTool o true (pre ++ f :: suf)).info) = some files ∧
      files.map (·.filename) = (runTool o true (pre ++ f :: suf)).written.map (·.1) ∧
      files[(runTool o true pre).info.length]? = some ⟨f.name, nodes⟩ ∧
      tt.mapNodes (fun ps => ps.map (·.2.1)) = f.tree.tidyUp ∧
      (∀ p ∈ tt.post, p.2.1.Says f.lang.cpp
        (p.2.1.apply f.lang o (runTool o true pre).nextId p.1).group p.2.2) ∧
      tt.post.flatMap
          (fun p => (p.2.1.apply f.lang o (runTool o true pre).nextId p.1).group.ids)
        = List.range' (runTool o true pre).nextId
            ((runTool o true (pre ++ [f])).nextId - (runTool o true pre).nextId) ∧
      IsTree nodes 0 (tt.mapNodes fun ps => (ps.filter fun p =>
        (p.2.1.apply f.lang o (runTool o true pre).nextId p.1).group.ids ≠ []).map (·.2.2)) := by
  obtain ⟨nodes, nt, h1, h2, hids, h3⟩ := C08_decodes o pre suf f hnew hmut
  generalize hF : (runTool o true pre).nextId = F at h3 hids ⊢
  refine ⟨_, nodes.map PNode.said,
    nt.mapNodes fun ps => ps.map fun p => (p.1, p.2, (p.2.apply f.lang o F p.1).group.said),
    info_read _, ?_, ?_, ?_, ?_, ?_, ?_⟩
  · rw [List.map_map, ← C06_entries_are_written_files]
    rfl
  · rw [List.getElem?_map, h1]
    rfl
  · rw [mapNodes_mapNodes, ← h2]
    simp only [List.map_map]
    rfl
  · intro p hp
    rw [mapNodes_post] at hp
    obtain ⟨q, hq, rfl⟩ := List.mem_map.mp hp
    have hm : q.2 ∈ f.tree.post := by
      rw [← MTree.tidyUp_post, ← h2, mapNodes_post]
      exact List.mem_map.mpr ⟨q, hq, rfl⟩
    obtain ⟨r, h4, h5⟩ := C60_point q.2 f.lang o F q.1 (hs _ hm)
    rw [Group.said_eq] at h4
    cases h4
    exact h5
  · rw [mapNodes_post, List.flatMap_map]
    exact hids
  · have h4 := isTree_said _ _ _ h3
    rw [mapNodes_mapNodes] at h4 ⊢
    simp only [List.filter_map, List.map_map] at h4 ⊢
    exact h4

/-- In a typed program without the GNU operators every point is reported as it is. -/
theorem C60_visited (l : Lang) (o : Options) (root : Node) (ht : OperatorTyping root)
    (hg : NoGnuOperators root) (p : List Nat) (m : Mutation)
    (h : MutationAt l o.optimise root p m) (first id : Nat) :
    ∃ r, readGroup ((m.apply l o first id).group.toJson true) = some r ∧
      m.Says l.cpp (m.apply l o first id).group r :=
  C60_point m l o first id (C41_partial l o.optimise root ht hg p m h)

/-! ### Examples -/

/-- The ids that are reported. -/
def Proto.Report.ids : Report → List Nat
  | .stmt id _ => [id]
  | .expr _ is => is.map (·.1)
  | .bin _ _ _ _ is => is.map (·.1)
  | .un _ _ _ is => is.map (·.1)

/-- What is said about the sample file. -/
example : (readInfo (infoFile (runTool Sample.opts true [Sample.file t!"a.cc" Sample.cpp]).info)).map
    (fun fs => fs.flatMap fun f => f.nodes.map fun n => (n.children, n.reports.map Report.ids)) =
    some ((runTool Sample.opts true [Sample.file t!"a.cc" Sample.cpp]).info.flatMap fun f =>
      f.nodes.map fun n => (n.children, n.groups.map Group.ids)) := by
  decide +kernel

/-- The report on `a + b`. -/
example : readGroup ((Group.replaceBin .Add ⟨⟨3, 5⟩, ⟨3, 10⟩, t!"a + b"⟩ ⟨⟨3, 5⟩, ⟨3, 6⟩, t!"a"⟩
      ⟨⟨3, 9⟩, ⟨3, 10⟩, t!"b"⟩ [(7, .ReplaceWithLHS), (8, .ReplaceWithShl)]).toJson true) =
    some (.bin .add ⟨(3, 5), (3, 10), t!"a + b"⟩ ⟨(3, 5), (3, 6), t!"a"⟩ ⟨(3, 9), (3, 10), t!"b"⟩
      [(7, .lhs), (8, .op .shl)]) := by decide +kernel

/-- The sample file meets the hypotheses of `C60`. -/
example : (∀ m ∈ (Sample.file t!"a.cc" Sample.cpp).tree.post, m.Supported Sample.opts.optimise) ∧
    (runTool Sample.opts true [Sample.file t!"a.cc" Sample.cpp]).nextId ≠
      (runTool Sample.opts true []).nextId := by
  refine ⟨?_, by decide +kernel⟩
  intro m hm
  have : m ∈ [Mutation.bin (Sample.bin .add Sample.intVal Sample.intVal),
      .expr (Sample.expr Sample.intVal), .stmt Sample.stmt] := by
    revert hm
    exact (by decide : ∀ m ∈ Sample.tree.post,
      m ∈ [Mutation.bin (Sample.bin .add Sample.intVal Sample.intVal),
        .expr (Sample.expr Sample.intVal), .stmt Sample.stmt]) m
  simp only [List.mem_cons, List.not_mem_nil, or_false] at this
  rcases this with rfl | rfl | rfl
  · exact ⟨rfl, rfl, rfl, by decide⟩
  · trivial
  · trivial

/-- A field or enumerator that the schema does not have is not accepted. -/
example : readVal 2 (.message t!"SourceLocation") (.obj [(t!"lin", .num 1)]) = none ∧
    readVal 1 (.enum t!"UnaryOperator") (.str t!"Plus") = none := ⟨rfl, rfl⟩

end Dredd
