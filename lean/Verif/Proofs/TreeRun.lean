/-
What `applyMutations` computes, in closed form.  Helper lemmas.
-/
import Verif.Proofs.Clauses
import Verif.Spec.Tree

namespace Dredd

/-- Number of mutants of a mutation. -/
def Mutation.count (l : Lang) (opt : Bool) : Mutation → Nat
  | .bin s => if !l.cpp && s.op.isLogical then 3 else (s.clauses opt).length
  | .un s => (s.clauses opt).length
  | .expr s => (s.clauses l opt).length
  | .stmt _ => 1

/-- The group of a mutation whose first id is `id`. -/
def Mutation.groupAt (l : Lang) (opt : Bool) (id : Nat) : Mutation → Group
  | .bin s =>
    .replaceBin s.op.proto s.info s.lhsInfo s.rhsInfo
      (if !l.cpp && s.op.isLogical then
        [(id, if s.op == .land then .ReplaceWithLOr else .ReplaceWithLAnd),
         (id + 1, .ReplaceWithLHS), (id + 2, .ReplaceWithRHS)]
       else instsFrom id (s.clauses opt))
  | .un s => .replaceUn s.op.proto s.info s.subInfo (instsFrom id (s.clauses opt))
  | .expr s => .replaceExpr s.info (instsFrom id (s.clauses l opt))
  | .stmt s => .removeStmt id s.info

theorem Mutation.apply_nextId (l o first id) (m : Mutation) :
    (m.apply l o first id).nextId = id + m.count l o.optimise := by
  cases m with
  | bin s =>
    simp only [Mutation.apply, BinSite.apply, Mutation.count]
    split
    · simp [BinSite.applyCLogical]
    · simp [BinSite.genBody_eq, runClauses_eq]
  | un s => simp [Mutation.apply, UnSite.apply, Mutation.count, UnSite.genBody_eq, runClauses_eq]
  | expr s =>
    simp [Mutation.apply, ExprSite.apply, Mutation.count, ExprSite.genBody_eq, runClauses_eq]
  | stmt s => simp [Mutation.apply, StmtSite.apply, Mutation.count]

theorem Mutation.apply_group (l o first id) (m : Mutation) :
    (m.apply l o first id).group = m.groupAt l o.optimise id := by
  cases m with
  | bin s =>
    simp only [Mutation.apply, BinSite.apply, Mutation.groupAt]
    split
    · simp [BinSite.applyCLogical, GenSt.inst]
    · simp [BinSite.genBody_eq, runClauses_eq]
  | un s => simp [Mutation.apply, UnSite.apply, Mutation.groupAt, UnSite.genBody_eq, runClauses_eq]
  | expr s =>
    simp [Mutation.apply, ExprSite.apply, Mutation.groupAt, ExprSite.genBody_eq, runClauses_eq]
  | stmt s => simp [Mutation.apply, StmtSite.apply, Mutation.groupAt]

theorem Mutation.groupAt_ids (l opt id) (m : Mutation) :
    (m.groupAt l opt id).ids = List.range' id (m.count l opt) := by
  cases m with
  | bin s =>
    simp only [Mutation.groupAt, Mutation.count, Group.ids]
    split
    · simp [List.range'_succ]
    · simp
  | un s => simp [Mutation.groupAt, Mutation.count, Group.ids]
  | expr s => simp [Mutation.groupAt, Mutation.count, Group.ids]
  | stmt s => simp [Mutation.groupAt, Mutation.count, Group.ids, List.range'_succ]

/-- Total number of mutants of a list of mutations. -/
def countAll (l : Lang) (opt : Bool) (ms : List Mutation) : Nat :=
  (ms.map (·.count l opt)).sum

@[simp] theorem countAll_nil (l opt) : countAll l opt [] = 0 := rfl
@[simp] theorem countAll_cons (l opt m ms) :
    countAll l opt (m :: ms) = m.count l opt + countAll l opt ms := by simp [countAll]
@[simp] theorem countAll_append (l opt ms ns) :
    countAll l opt (ms ++ ns) = countAll l opt ms + countAll l opt ns := by simp [countAll]

/-- The groups of a list of mutations numbered from `id`; mutations without
mutants give no group. -/
def groupsFrom (l : Lang) (opt build : Bool) : Nat → List Mutation → List Group
  | _, [] => []
  | id, m :: ms =>
    (if build && decide (0 < m.count l opt) then [m.groupAt l opt id] else [])
    ++ groupsFrom l opt build (id + m.count l opt) ms

/-- Edits of a list of mutations numbered from `id`. -/
def editsFrom (l : Lang) (o : Options) (first : Nat) : Nat → List Mutation → List Edit
  | _, [] => []
  | id, m :: ms =>
    (m.apply l o first id).edits ++ editsFrom l o first (id + m.count l o.optimise) ms

/-- Declarations of a list of mutations numbered from `id`. -/
def declsFrom (l : Lang) (o : Options) (first : Nat) : Nat → List Mutation → List MutFn
  | _, [] => []
  | id, m :: ms =>
    (m.apply l o first id).decls ++ declsFrom l o first (id + m.count l o.optimise) ms

theorem groupsFrom_append (l opt build id ms ns) :
    groupsFrom l opt build id (ms ++ ns)
      = groupsFrom l opt build id ms ++ groupsFrom l opt build (id + countAll l opt ms) ns := by
  induction ms generalizing id with
  | nil => simp [groupsFrom]
  | cons m ms ih => simp [groupsFrom, ih, Nat.add_assoc]

theorem editsFrom_append (l o first id ms ns) :
    editsFrom l o first id (ms ++ ns)
      = editsFrom l o first id ms ++ editsFrom l o first (id + countAll l o.optimise ms) ns := by
  induction ms generalizing id with
  | nil => simp [editsFrom]
  | cons m ms ih => simp [editsFrom, ih, Nat.add_assoc]

theorem declsFrom_append (l o first id ms ns) :
    declsFrom l o first id (ms ++ ns)
      = declsFrom l o first id ms ++ declsFrom l o first (id + countAll l o.optimise ms) ns := by
  induction ms generalizing id with
  | nil => simp [declsFrom]
  | cons m ms ih => simp [declsFrom, ih, Nat.add_assoc]

theorem groupsFrom_ids (l opt id ms) :
    (groupsFrom l opt true id ms).flatMap Group.ids = List.range' id (countAll l opt ms) := by
  induction ms generalizing id with
  | nil => simp [groupsFrom]
  | cons m ms ih =>
    simp only [groupsFrom, List.flatMap_append, ih, countAll_cons, Bool.true_and, decide_eq_true_eq]
    rw [← List.range'_append_1]
    congr 1
    split
    · simp [Mutation.groupAt_ids]
    · have : m.count l opt = 0 := by omega
      simp [this]

theorem groupsFrom_false (l opt id ms) : groupsFrom l opt false id ms = [] := by
  induction ms generalizing id with
  | nil => rfl
  | cons m ms ih => simp [groupsFrom, ih]

mutual
/-- The tree of groups numbered from `id`. -/
def grpTree (l : Lang) (opt build : Bool) : Nat → MTree Mutation → MTree Group
  | id, .node ms ks =>
    .node (groupsFrom l opt build (id + countAll l opt (MTree.postL ks)) ms)
      (grpTreeL l opt build id ks)
def grpTreeL (l : Lang) (opt build : Bool) : Nat → List (MTree Mutation) → List (MTree Group)
  | _, [] => []
  | id, k :: ks =>
    grpTree l opt build id k :: grpTreeL l opt build (id + countAll l opt k.post) ks
end

mutual
theorem grpTree_post (l opt build id) :
    (t : MTree Mutation) → (grpTree l opt build id t).post = groupsFrom l opt build id t.post
  | .node ms ks => by
    simp [grpTree, MTree.post, grpTreeL_post l opt build id ks, groupsFrom_append]
theorem grpTreeL_post (l opt build id) :
    (ts : List (MTree Mutation)) →
      MTree.postL (grpTreeL l opt build id ts) = groupsFrom l opt build id (MTree.postL ts)
  | [] => by simp [grpTreeL, MTree.postL, groupsFrom]
  | t :: ts => by
    simp [grpTreeL, MTree.postL, grpTree_post l opt build id t, grpTreeL_post l opt build _ ts,
      groupsFrom_append]
end

mutual
theorem grpTree_size (l opt build id) :
    (t : MTree Mutation) → (grpTree l opt build id t).size = t.size
  | .node ms ks => by simp [grpTree, MTree.size, grpTreeL_size l opt build id ks]
theorem grpTreeL_size (l opt build id) :
    (ts : List (MTree Mutation)) → MTree.sizeL (grpTreeL l opt build id ts) = MTree.sizeL ts
  | [] => by simp [grpTreeL, MTree.sizeL]
  | t :: ts => by
    simp [grpTreeL, MTree.sizeL, grpTree_size l opt build id t, grpTreeL_size l opt build _ ts]
end

/-- Indices of the roots of consecutive encodings. -/
def kidIdx {α} : Nat → List (MTree α) → List Nat
  | _, [] => []
  | b, k :: ks => b :: kidIdx (b + k.size) ks

mutual
/-- Preorder encoding starting at index `b`. -/
def flat : Nat → MTree Group → List PNode
  | b, .node gs ks => ⟨gs, kidIdx (b + 1) ks⟩ :: flatL (b + 1) ks
def flatL : Nat → List (MTree Group) → List PNode
  | _, [] => []
  | b, k :: ks => flat b k ++ flatL (b + k.size) ks
end

mutual
theorem flat_length (b) : (t : MTree Group) → (flat b t).length = t.size
  | .node gs ks => by simp [flat, MTree.size, flatL_length (b + 1) ks]
theorem flatL_length (b) : (ts : List (MTree Group)) → (flatL b ts).length = MTree.sizeL ts
  | [] => rfl
  | t :: ts => by simp [flatL, MTree.sizeL, flat_length b t, flatL_length (b + t.size) ts]
end

theorem modify_mid {α} (pre : List α) (x : α) (suf : List α) (f : α → α) :
    (pre ++ x :: suf).modify pre.length f = pre ++ f x :: suf := by
  induction pre with
  | nil => simp
  | cons p pre ih => simp [ih]

theorem foldl_applyMutation (l o first build) (ms : List Mutation) (pre : List PNode) (n : PNode)
    (suf : List PNode) (st : TUState) (h : st.nodes = pre ++ n :: suf) :
    ms.foldl (applyMutation l o first build pre.length) st =
      { nextId := st.nextId + countAll l o.optimise ms
        nodes := pre ++ ⟨n.groups ++ groupsFrom l o.optimise build st.nextId ms, n.children⟩ :: suf
        edits := st.edits ++ editsFrom l o first st.nextId ms
        decls := st.decls ++ declsFrom l o first st.nextId ms } := by
  induction ms generalizing st n with
  | nil =>
    cases st; simp_all [groupsFrom, editsFrom, declsFrom]
  | cons m ms ih =>
    rw [List.foldl_cons]
    simp only [applyMutation, Mutation.apply_nextId, Mutation.apply_group]
    by_cases hb : (build && decide (0 < m.count l o.optimise)) = true
    · have hb' : (build && decide (st.nextId + m.count l o.optimise > st.nextId)) = true := by
        simp only [Bool.and_eq_true, decide_eq_true_eq] at hb ⊢; exact ⟨hb.1, by omega⟩
      rw [if_pos hb']
      rw [ih (n := ⟨n.groups ++ [m.groupAt l o.optimise st.nextId], n.children⟩)]
      · simp [groupsFrom, editsFrom, declsFrom, hb, TUState.addGroup, Nat.add_assoc]
      · simp [TUState.addGroup, h, modify_mid]
    · have hb' : ¬ (build && decide (st.nextId + m.count l o.optimise > st.nextId)) = true := by
        simp only [Bool.and_eq_true, decide_eq_true_eq, not_and] at hb ⊢
        intro h1; have := hb h1; omega
      rw [if_neg hb']
      rw [ih (n := n)]
      · simp [groupsFrom, editsFrom, declsFrom, hb, Nat.add_assoc]
      · simp [h]

mutual
theorem applyMutations_eq (l o first build) :
    (t : MTree Mutation) → (pre : List PNode) → (st : TUState) → (st.nodes = pre ++ [⟨[], []⟩]) →
    applyMutations l o first build t pre.length st =
      { nextId := st.nextId + countAll l o.optimise t.post
        nodes := pre ++ flat pre.length (grpTree l o.optimise build st.nextId t)
        edits := st.edits ++ editsFrom l o first st.nextId t.post
        decls := st.decls ++ declsFrom l o first st.nextId t.post }
  | .node ms ks, pre, st, h => by
    rw [applyMutations]
    have hc := applyChildren_eq l o first build ks pre ⟨[], []⟩ [] st (by simpa using h)
    rw [hc]
    rw [foldl_applyMutation l o first build ms pre
      ⟨[], kidIdx (pre.length + 1) ks⟩
      (flatL (pre.length + 1) (grpTreeL l o.optimise build st.nextId ks)) _ (by simp)]
    simp [MTree.post, editsFrom_append, declsFrom_append, flat, grpTree, Nat.add_assoc]
    exact (kidIdx_grpTreeL l o.optimise build st.nextId ks _).symm
theorem applyChildren_eq (l o first build) :
    (ts : List (MTree Mutation)) → (pre : List PNode) → (n : PNode) → (suf : List PNode) →
    (st : TUState) → (st.nodes = pre ++ n :: suf) →
    applyChildren l o first build ts pre.length st =
      { nextId := st.nextId + countAll l o.optimise (MTree.postL ts)
        nodes := pre ++ ⟨n.groups, n.children ++ kidIdx (pre.length + 1 + suf.length) ts⟩ :: suf
          ++ flatL (pre.length + 1 + suf.length) (grpTreeL l o.optimise build st.nextId ts)
        edits := st.edits ++ editsFrom l o first st.nextId (MTree.postL ts)
        decls := st.decls ++ declsFrom l o first st.nextId (MTree.postL ts) }
  | [], pre, n, suf, st, h => by
    cases st
    simp_all [applyChildren, MTree.postL, kidIdx, grpTreeL, flatL, editsFrom, declsFrom]
  | t :: ts, pre, n, suf, st, h => by
    rw [applyChildren]
    have hlen : st.nodes.length = pre.length + 1 + suf.length := by simp [h]; omega
    let n' : PNode := ⟨n.groups, n.children ++ [st.nodes.length]⟩
    have hpre : (pre ++ n' :: suf).length = st.nodes.length := by simp [hlen]; omega
    have hadd : (st.addChild pre.length).nodes = (pre ++ n' :: suf) ++ [⟨[], []⟩] := by
      simp only [TUState.addChild]
      rw [h, modify_mid]
      simp [n', h]
    have ht := applyMutations_eq l o first build t (pre ++ n' :: suf) (st.addChild pre.length) hadd
    rw [hpre] at ht
    rw [ht]
    rw [applyChildren_eq l o first build ts pre n'
      (suf ++ flat st.nodes.length (grpTree l o.optimise build st.nextId t)) _
      (by simp [TUState.addChild])]
    have hs : pre.length + 1 + (suf ++ flat st.nodes.length
        (grpTree l o.optimise build st.nextId t)).length = st.nodes.length + t.size := by
      simp [flat_length, grpTree_size, hlen]; omega
    rw [hs]
    simp [TUState.addChild, MTree.postL, editsFrom_append, declsFrom_append, kidIdx, n',
      grpTreeL, flatL, hlen, grpTree_size, Nat.add_assoc]
theorem kidIdx_grpTreeL (l opt build id) :
    (ts : List (MTree Mutation)) → (b : Nat) → kidIdx b (grpTreeL l opt build id ts) = kidIdx b ts
  | [], b => rfl
  | t :: ts, b => by
    simp [grpTreeL, kidIdx, grpTree_size, kidIdx_grpTreeL l opt build _ ts]
end

end Dredd
