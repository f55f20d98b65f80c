/-
C37: the query script understands every action the tool can report, and shows the
operator that the mutated code applies.
-/
import Verif.Props.C35
import Verif.Props.C36
import Verif.Proofs.SiteExec

namespace Dredd

open Query

/-- How a change to a binary operator expression should be shown, given what is
shown for the operands and the separator (a space, or a line break if the
expression spans several lines). -/
def BChange.display (x y : Shown) (sep : Text) : BChange → Text
  | .lhs => x.blank ++ x.text
  | .rhs => y.blank ++ y.text
  | .op o => x.blank ++ parenthesise x.text ++ sep ++ o.str ++ sep ++ y.blank ++ parenthesise y.text

/-- How a change to a unary operator expression should be shown. -/
def UChange.display (x : Shown) : UChange → Text
  | .operand => x.blank ++ x.text
  | .op o =>
    if o.isPrefix then x.blank ++ o.str ++ t!" " ++ parenthesise x.text
    else x.blank ++ parenthesise x.text ++ t!" " ++ o.str

/-- How a change to an expression should be shown. -/
def EChange.display (x : Shown) : EChange → Text
  | .insert o => x.blank ++ o.str ++ t!" " ++ parenthesise x.text
  | .const l => l.str

/-- The characters of which operators (other than those spelled with letters),
brackets and separators consist. -/
def operatorChars : Text := t!"+-*/%<>=!&|^~?:,()[]{};#'\""

/-- C37: an operand is shown in parentheses unless it is free of operators,
brackets and separators; nothing else is changed. -/
theorem C37_parentheses (t : Text) (c : Char) (hc : c ∈ t) (ho : c ∈ operatorChars) :
    parenthesise t = t!"(" ++ t ++ t!")" := by
  have hp : ∀ c ∈ operatorChars, plainChar c = false := by decide +kernel
  unfold parenthesise
  rw [if_neg]
  intro h
  rw [Bool.and_eq_true, List.all_eq_true] at h
  have := h.2 c hc
  rw [hp c ho] at this
  cases this

theorem C37_unparenthesised (t : Text) (h : parenthesise t ≠ t!"(" ++ t ++ t!")") :
    parenthesise t = t ∧ ∀ c ∈ t, c ∉ operatorChars := by
  constructor
  · unfold parenthesise at h ⊢
    by_cases hc : (!t.isEmpty && t.all plainChar) = true
    · rw [if_pos hc]
    · rw [if_neg hc] at h
      exact absurd rfl h
  · intro c hc ho
    exact h (C37_parentheses t c hc ho)

example : parenthesise t!"a + b" = t!"(a + b)" ∧ parenthesise t!"a.b1" = t!"a.b1" := by decide

/-- An instance that was written by the run, in group `g` of file entry `f`. -/
structure Listed (o : Options) (fs : List SourceFile) (f : FileInfo) (g : Group) (id : Nat)
    (i : Option Json) : Prop where
  file : f ∈ (runTool o true fs).info
  node : ∃ n ∈ f.nodes, g ∈ n.groups
  inst : (id, i) ∈ g.written

theorem showInfo_listed {o : Options} {fs : List SourceFile} {f : FileInfo} {g : Group} {id : Nat}
    {i : Option Json} (h : Listed o fs f g id i) (pre post src : Text) (read : Text → Option Text)
    (hr : read (originalFile pre post f.filename) = some src) :
    showInfo (infoFile (runTool o true fs).info) id pre post read =
      (report src (expectedInfo f g i)).map some := by
  obtain ⟨n, hn, hg⟩ := h.node
  obtain ⟨d, hd, hget⟩ := C35_found o fs f n g id i h.file hn hg h.inst
  have hname : (f.toJson true).get t!"filename" = some (.str f.filename) := rfl
  unfold showInfo
  rw [hd]
  simp only [Option.bind_some, hget]
  simp only [expectedInfo, hname, Option.bind_some, Json.text, hr]

theorem shown_eq {src : Text} {val : Json} {k k' : Text} {b e : Loc}
    (hb : val.get k = some (b.toJson true)) (he : val.get k' = some (e.toJson true)) :
    shown src val k k' = textForRange src b e := by
  unfold shown
  rw [hb, he]
  rfl

theorem exprReplacement_eq (x : Shown) (a : EAct) :
    exprReplacement x a.name = some ((a.change true).display x) := by
  cases a <;> rfl

theorem unaryReplacement_eq (x : Shown) (a : UAct) :
    unaryReplacement x a.name = some (a.change.display x) := by
  cases a <;> rfl

theorem binaryReplacement_eq (e x y : Shown) (a : BAct) :
    binaryReplacement e x y a.name =
      some (a.change.display x y (if e.singleLine then t!" " else t!"\n")) := by
  cases a <;> rfl

/-- C37, binary operators: the script reports every instance, and shows the change that
its action stands for. -/
theorem C37_binary (o : Options) (fs : List SourceFile) (f : FileInfo) (op : PBOp)
    (r lhs rhs : RangeInfo) (is : List (Nat × BAct)) (id : Nat) (a : BAct)
    (h : Listed o fs f (.replaceBin op r lhs rhs is) id (some (BAct.instJson true (id, a))))
    (pre post src : Text) (read : Text → Option Text)
    (hr : read (originalFile pre post f.filename) = some src) (e x y : Shown)
    (he : textForRange src r.start r.fin = some e)
    (hx : textForRange src lhs.start lhs.fin = some x)
    (hy : textForRange src rhs.start rhs.fin = some y) :
    showInfo (infoFile (runTool o true fs).info) id pre post read =
      some (some ⟨e.blank ++ e.text,
        some (a.change.display x y (if e.singleLine then t!" " else t!"\n"))⟩) := by
  rw [showInfo_listed h pre post src read hr]
  have hg : ∃ val, (Group.toJson true (.replaceBin op r lhs rhs is)).get t!"replaceBinaryOperator"
      = some val ∧ shown src val t!"exprStart" t!"exprEnd" = some e ∧
      shown src val t!"lhsStart" t!"lhsEnd" = some x ∧
      shown src val t!"rhsStart" t!"rhsEnd" = some y :=
    ⟨_, rfl, by rw [← he]; exact shown_eq rfl rfl, by rw [← hx]; exact shown_eq rfl rfl,
      by rw [← hy]; exact shown_eq rfl rfl⟩
  obtain ⟨val, h1, h2, h3, h4⟩ := hg
  have h5 : actionOf (expectedInfo f (.replaceBin op r lhs rhs is)
    (some (BAct.instJson true (id, a)))) = some a.name := rfl
  have h6 : report src (expectedInfo f (.replaceBin op r lhs rhs is)
    (some (BAct.instJson true (id, a)))) = showBinary src (expectedInfo f
      (.replaceBin op r lhs rhs is) (some (BAct.instJson true (id, a)))) := rfl
  rw [h6, showBinary, h5]
  simp only [expectedInfo, h1, h2, h3, h4, Option.bind_some, binaryReplacement_eq, Option.map_some]

/-- C37, unary operators. -/
theorem C37_unary (o : Options) (fs : List SourceFile) (f : FileInfo) (op : PUOp)
    (r sub : RangeInfo) (is : List (Nat × UAct)) (id : Nat) (a : UAct)
    (h : Listed o fs f (.replaceUn op r sub is) id (some (UAct.instJson true (id, a))))
    (pre post src : Text) (read : Text → Option Text)
    (hr : read (originalFile pre post f.filename) = some src) (e x : Shown)
    (he : textForRange src r.start r.fin = some e)
    (hx : textForRange src sub.start sub.fin = some x) :
    showInfo (infoFile (runTool o true fs).info) id pre post read =
      some (some ⟨e.blank ++ e.text, some (a.change.display x)⟩) := by
  rw [showInfo_listed h pre post src read hr]
  have hg : ∃ val, (Group.toJson true (.replaceUn op r sub is)).get t!"replaceUnaryOperator"
      = some val ∧ shown src val t!"exprStart" t!"exprEnd" = some e ∧
      shown src val t!"operandStart" t!"operandEnd" = some x :=
    ⟨_, rfl, by rw [← he]; exact shown_eq rfl rfl, by rw [← hx]; exact shown_eq rfl rfl⟩
  obtain ⟨val, h1, h2, h3⟩ := hg
  have h5 : actionOf (expectedInfo f (.replaceUn op r sub is)
    (some (UAct.instJson true (id, a)))) = some a.name := rfl
  have h6 : report src (expectedInfo f (.replaceUn op r sub is)
    (some (UAct.instJson true (id, a)))) = showUnary src (expectedInfo f
      (.replaceUn op r sub is) (some (UAct.instJson true (id, a)))) := rfl
  rw [h6, showUnary, h5]
  simp only [expectedInfo, h1, h2, h3, Option.bind_some, unaryReplacement_eq, Option.map_some]

/-- C37, expressions.  Truth values are always shown as `true` and `false`, also where
the mutated code (in C) has `1` and `0`. -/
theorem C37_expr (o : Options) (fs : List SourceFile) (f : FileInfo) (r : RangeInfo)
    (is : List (Nat × EAct)) (id : Nat) (a : EAct)
    (h : Listed o fs f (.replaceExpr r is) id (some (EAct.instJson true (id, a))))
    (pre post src : Text) (read : Text → Option Text)
    (hr : read (originalFile pre post f.filename) = some src) (e : Shown)
    (he : textForRange src r.start r.fin = some e) :
    showInfo (infoFile (runTool o true fs).info) id pre post read =
      some (some ⟨e.blank ++ e.text, some ((a.change true).display e)⟩) := by
  rw [showInfo_listed h pre post src read hr]
  have hg : ∃ val, (Group.toJson true (.replaceExpr r is)).get t!"replaceExpr"
      = some val ∧ shown src val t!"start" t!"end" = some e :=
    ⟨_, rfl, by rw [← he]; exact shown_eq rfl rfl⟩
  obtain ⟨val, h1, h2⟩ := hg
  have h5 : actionOf (expectedInfo f (.replaceExpr r is)
    (some (EAct.instJson true (id, a)))) = some a.name := rfl
  have h6 : report src (expectedInfo f (.replaceExpr r is)
    (some (EAct.instJson true (id, a)))) = showExpr src (expectedInfo f
      (.replaceExpr r is) (some (EAct.instJson true (id, a)))) := rfl
  rw [h6, showExpr, h5]
  simp only [expectedInfo, h1, h2, Option.bind_some, exprReplacement_eq, Option.map_some]

/-- C37, statements. -/
theorem C37_stmt (o : Options) (fs : List SourceFile) (f : FileInfo) (r : RangeInfo) (id : Nat)
    (h : Listed o fs f (.removeStmt id r) id none)
    (pre post src : Text) (read : Text → Option Text)
    (hr : read (originalFile pre post f.filename) = some src) (e : Shown)
    (he : textForRange src r.start r.fin = some e) :
    showInfo (infoFile (runTool o true fs).info) id pre post read =
      some (some ⟨e.blank ++ e.text, none⟩) := by
  rw [showInfo_listed h pre post src read hr]
  have hg : ∃ val, (Group.toJson true (.removeStmt id r)).get t!"removeStmt"
      = some val ∧ shown src val t!"start" t!"end" = some e :=
    ⟨_, rfl, by rw [← he]; exact shown_eq rfl rfl⟩
  obtain ⟨val, h1, h2⟩ := hg
  have h6 : report src (expectedInfo f (.removeStmt id r) none) =
    showRemove src (expectedInfo f (.removeStmt id r) none) := rfl
  rw [h6, showRemove]
  simp only [expectedInfo, h1, h2, Option.bind_some, Option.map_some]

/-- The change that an expression returned by a mutator function makes to a binary
operator expression, whose operands the function receives as `arg1` and `arg2`. -/
def RetE.change2 : RetE → Option BChange
  | .bin op => some (.op op)
  | .arg .arg1 => some .lhs
  | .arg .arg2 => some .rhs
  | _ => none

/-- The same for a unary operator expression, whose operand is `arg`. -/
def RetE.change1 : RetE → Option UChange
  | .un op => some (.op op)
  | .arg .arg => some .operand
  | _ => none

/-- The same for an expression, which is passed as `arg`. -/
def RetE.changeE : RetE → Option EChange
  | .ins op => some (.insert op)
  | .lit l => some (.const l)
  | _ => none

theorem BinSite.clause_change {s : BinSite} {opt : Bool} {e : RetE} {x : BAct}
    (h : (e, x) ∈ s.clauses opt) : e.change2 = some x.change := by
  unfold BinSite.clauses at h
  rw [List.mem_append] at h
  rcases h with h | h
  · obtain ⟨op, hop, he⟩ := List.mem_map.1 h
    simp only [Prod.mk.injEq] at he
    obtain ⟨rfl, rfl⟩ := he
    rw [BOp.change_action op (BinSite.mem_replacements hop).1]
    rfl
  · unfold BinSite.argClauses at h
    split at h
    · simp at h
    split at h
    · simp at h
    · rw [List.mem_append] at h
      rcases h with h | h <;> split at h <;>
        simp only [List.mem_singleton, List.not_mem_nil, Prod.mk.injEq] at h <;>
        obtain ⟨rfl, rfl⟩ := h <;> rfl

theorem UnSite.clause_change {s : UnSite} {opt : Bool} {e : RetE} {x : UAct}
    (h : (e, x) ∈ s.clauses opt) : e.change1 = some x.change := by
  unfold UnSite.clauses at h
  rw [List.mem_append] at h
  rcases h with h | h
  · obtain ⟨op, hop, he⟩ := List.mem_map.1 h
    simp only [Prod.mk.injEq] at he
    obtain ⟨rfl, rfl⟩ := he
    rw [UOp.change_action op (UnSite.mem_replacements hop).1]
    rfl
  · split at h <;> simp only [List.mem_singleton, List.not_mem_nil, Prod.mk.injEq] at h
    obtain ⟨rfl, rfl⟩ := h
    rfl

theorem ExprSite.clause_change {s : ExprSite} {l : Lang} {opt : Bool} {e : RetE} {x : EAct}
    (h : (e, x) ∈ s.clauses l opt) : e.changeE = some (x.change l.cpp) := by
  unfold ExprSite.clauses at h
  simp only [List.mem_append] at h
  rcases h with (h | h) | h
  · split at h
    · simp at h
    · simp only [List.mem_cons, List.not_mem_nil, or_false, Prod.mk.injEq] at h
      rcases h with ⟨rfl, rfl⟩ | ⟨rfl, rfl⟩ <;> rfl
  · split at h
    · simp at h
    · simp only [List.mem_append] at h
      rcases h with (h | h) | h <;> have h := mem_ite_singleton h <;>
        simp only [Prod.mk.injEq] at h <;> obtain ⟨rfl, rfl⟩ := h <;> rfl
  · split at h
    · simp at h
    · simp only [List.mem_append] at h
      rcases h with ((((((h | h) | h) | h) | h) | h) | h) | h <;> have h := mem_ite_singleton h <;>
        simp only [Prod.mk.injEq] at h <;> obtain ⟨rfl, rfl⟩ := h <;> rfl

theorem mem_guardsFrom {α : Type} {k j : Nat} {e : RetE} {cs : List (RetE × α)} {base : Nat}
    (h : Line.guard j e ∈ guardsFrom k cs) :
    ∃ a, (e, a) ∈ cs ∧ (base + j, a) ∈ instsFrom (base + k) cs := by
  induction cs generalizing k with
  | nil => cases h
  | cons c cs ih =>
    rcases List.mem_cons.1 h with h | h
    · cases h
      exact ⟨c.2, by simp, by simp [instsFrom]⟩
    · obtain ⟨a, h1, h2⟩ := ih h
      exact ⟨a, by simp [h1], by rw [instsFrom]; exact List.mem_cons_of_mem _ h2⟩

/-- C37: the code that runs when an id of a binary operator is enabled makes the change that
the action of that id stands for (and which the script shows). -/
theorem C37_applies_binary (l : Lang) (o : Options) (first id : Nat) (s : BinSite)
    (hs : (!l.cpp && s.op.isLogical) = false) (fn : MutFn) (j : Nat) (e : RetE)
    (hf : fn ∈ (s.apply l o first id).decls) (hj : Line.guard j e ∈ fn.lines) :
    ∃ is a, (s.apply l o first id).group = .replaceBin s.op.proto s.info s.lhsInfo s.rhsInfo is ∧
      (id + j, a) ∈ is ∧ e.change2 = some a.change := by
  unfold BinSite.apply at hf ⊢
  simp only [hs, Bool.false_eq_true, if_false] at hf ⊢
  rw [List.mem_singleton] at hf
  subst hf
  obtain ⟨a, h1, h2⟩ : ∃ a, (e, a) ∈ s.clauses o.optimise ∧
      (id + j, a) ∈ (s.genBody o id).insts := by
    simp only [BinSite.genFn, BinSite.genBody_eq, runClauses_eq] at hj ⊢
    cases ht : o.track <;> simp [ht] at hj ⊢
    exact mem_guardsFrom (base := id) hj
  exact ⟨_, a, rfl, h2, BinSite.clause_change h1⟩

/-- C37: the same for unary operators. -/
theorem C37_applies_unary (l : Lang) (o : Options) (first id : Nat) (s : UnSite) (fn : MutFn)
    (j : Nat) (e : RetE) (hf : fn ∈ (s.apply l o first id).decls)
    (hj : Line.guard j e ∈ fn.lines) :
    ∃ is a, (s.apply l o first id).group = .replaceUn s.op.proto s.info s.subInfo is ∧
      (id + j, a) ∈ is ∧ e.change1 = some a.change := by
  unfold UnSite.apply at hf ⊢
  rw [List.mem_singleton] at hf
  subst hf
  obtain ⟨a, h1, h2⟩ : ∃ a, (e, a) ∈ s.clauses o.optimise ∧
      (id + j, a) ∈ (s.genBody o id).insts := by
    simp only [UnSite.genFn, UnSite.genBody_eq, runClauses_eq] at hj ⊢
    cases ht : o.track <;> simp [ht] at hj ⊢
    exact mem_guardsFrom (base := id) hj
  exact ⟨_, a, rfl, h2, UnSite.clause_change h1⟩

/-- C37: the same for expressions. -/
theorem C37_applies_expr (l : Lang) (o : Options) (first id : Nat) (s : ExprSite) (fn : MutFn)
    (j : Nat) (e : RetE) (hf : fn ∈ (s.apply l o first id).decls)
    (hj : Line.guard j e ∈ fn.lines) :
    ∃ is a, (s.apply l o first id).group = .replaceExpr s.info is ∧
      (id + j, a) ∈ is ∧ e.changeE = some (a.change l.cpp) := by
  unfold ExprSite.apply at hf ⊢
  rw [List.mem_singleton] at hf
  subst hf
  obtain ⟨a, h1, h2⟩ : ∃ a, (e, a) ∈ s.clauses l o.optimise ∧
      (id + j, a) ∈ (s.genBody l o id).insts := by
    simp only [ExprSite.genFn, ExprSite.genBody_eq, runClauses_eq] at hj ⊢
    cases ht : o.track <;> simp [ht] at hj ⊢
    exact mem_guardsFrom (base := id) hj
  exact ⟨_, a, rfl, h2, ExprSite.clause_change h1⟩

/-- C37: a C logical operator is handled by three functions (see C13 and C16 for what they do
together); the three ids stand for the other logical operator, the left operand and the right
operand. -/
theorem C37_c_logical (l : Lang) (o : Options) (first id : Nat) (s : BinSite)
    (hc : l.cpp = false) (hs : s.op.isLogical = true) :
    ∃ a, (s.apply l o first id).group = .replaceBin s.op.proto s.info s.lhsInfo s.rhsInfo
        [(id, a), (id + 1, .ReplaceWithLHS), (id + 2, .ReplaceWithRHS)] ∧
      (s.op = .land → a.change = .op .lor) ∧ (s.op = .lor → a.change = .op .land) := by
  unfold BinSite.apply
  simp only [hc, hs, Bool.not_false, Bool.and_true, if_true]
  refine ⟨_, rfl, ?_, ?_⟩ <;> intro h <;> simp [h, BAct.change]

namespace Sample

/-- A file with one addition, whose locations are those of the text. -/
def querySrc : Text := t!"int f(int a, int b) {\n  return a +\n    2*b;\n}\n"

def queryInfo (b last len : Nat) : RangeInfo := infoForRange querySrc b last len

end Sample

/-- What the script shows for the replacement of `+` by `-` in the sample text. -/
example :
    let r := Sample.queryInfo 31 41 1
    let x := Sample.queryInfo 31 31 1
    let y := Sample.queryInfo 39 41 1
    report Sample.querySrc (expectedInfo ⟨t!"a.c", []⟩ (.replaceBin .Add r x y
      [(0, .ReplaceWithSub)]) (some (BAct.instJson true (0, .ReplaceWithSub)))) =
    some ⟨t!"         a +\n    2*b", some t!"a\n-\n(2*b)"⟩ := by
  decide +kernel

end Dredd
