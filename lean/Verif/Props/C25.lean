/-
C25: a group lists different actions, none of which is the operator already
present.
C26: optimisation only removes actions.
-/
import Verif.Proofs.Clauses
import Verif.Spec.Action
import Verif.Spec.Samples

namespace Dredd

/-- An action of any kind. -/
inductive Act
  | bin (a : BAct)
  | un (a : UAct)
  | expr (a : EAct)
  | remove
deriving DecidableEq, Repr

/-- The actions listed in a group, in order. -/
def Group.acts : Group → List Act
  | .removeStmt _ _ => [.remove]
  | .replaceExpr _ is => is.map fun i => .expr i.2
  | .replaceBin _ _ _ _ is => is.map fun i => .bin i.2
  | .replaceUn _ _ _ is => is.map fun i => .un i.2

theorem instsFrom_map {α β : Type} (f : α → β) (k : Nat) (cs : List (RetE × α)) :
    (instsFrom k cs).map (fun i => f i.2) = cs.map fun c => f c.2 := by
  induction cs generalizing k with
  | nil => rfl
  | cons c cs ih => simp [instsFrom, ih]

theorem BinSite.group_acts (s : BinSite) (l : Lang) (o : Options) (first id : Nat) :
    (s.apply l o first id).group.acts =
      if !l.cpp && s.op.isLogical then
        [.bin (if s.op == .land then .ReplaceWithLOr else .ReplaceWithLAnd),
          .bin .ReplaceWithLHS, .bin .ReplaceWithRHS]
      else (s.clauses o.optimise).map fun c => .bin c.2 := by
  unfold BinSite.apply
  split
  · rfl
  · simp only [Group.acts, BinSite.genBody_eq, runClauses_eq]
    simp [instsFrom_map]

theorem UnSite.group_acts (s : UnSite) (l : Lang) (o : Options) (first id : Nat) :
    (s.apply l o first id).group.acts = (s.clauses o.optimise).map fun c => .un c.2 := by
  unfold UnSite.apply
  simp only [Group.acts, UnSite.genBody_eq, runClauses_eq]
  simp [instsFrom_map]

theorem ExprSite.group_acts (s : ExprSite) (l : Lang) (o : Options) (first id : Nat) :
    (s.apply l o first id).group.acts = (s.clauses l o.optimise).map fun c => .expr c.2 := by
  unfold ExprSite.apply
  simp only [Group.acts, ExprSite.genBody_eq, runClauses_eq]
  simp [instsFrom_map]

/-- Operators that replace others have different actions. -/
theorem BinSite.candidates_nodup (s : BinSite) : (s.candidates.map BOp.action).Nodup := by
  unfold BinSite.candidates
  cases s.op <;> cases s.lhs.ty.isBool <;> decide

theorem BinSite.candidates_new (s : BinSite) : ∀ op ∈ s.candidates, op.action.change = .op op := by
  unfold BinSite.candidates
  cases s.op <;> cases s.lhs.ty.isBool <;> decide

theorem unaryCandidates_nodup : (unaryCandidates.map UOp.action).Nodup := by decide

theorem nodup_map_filter {α β : Type} {f : α → β} {p : α → Bool} {xs : List α}
    (h : (xs.map f).Nodup) : ((xs.filter p).map f).Nodup :=
  h.sublist (List.filter_sublist.map f)

theorem nodup_act {α : Type} {f : α → Act} (hf : ∀ a b, f a = f b → a = b) {xs : List α}
    (h : xs.Nodup) : (xs.map f).Nodup :=
  List.pairwise_map.2 (h.imp fun hne heq => hne (hf _ _ heq))

theorem BinSite.clauses_nodup (s : BinSite) (opt : Bool) :
    ((s.clauses opt).map (·.2)).Nodup := by
  unfold BinSite.clauses
  rw [List.map_append, List.map_map]
  refine List.nodup_append.2 ⟨?_, ?_, ?_⟩
  · exact nodup_map_filter (f := BOp.action) s.candidates_nodup
  · unfold BinSite.argClauses
    split
    · simp
    split
    · simp
    split <;> split <;> simp
  · intro a ha b hb hab
    subst hab
    obtain ⟨op, hop, rfl⟩ := List.mem_map.1 ha
    have h1 := s.candidates_new op (List.mem_filter.1 hop).1
    have h2 : op.action = .ReplaceWithLHS ∨ op.action = .ReplaceWithRHS := by
      revert hb
      unfold BinSite.argClauses
      split
      · simp
      split
      · simp
      split <;> split <;> simp <;> intro h <;> simp [h]
    rcases h2 with h2 | h2 <;> rw [h2] at h1 <;> cases h1

theorem ite_sublist {α : Type} (c : Bool) (x : List α) : (if c then x else []).Sublist x := by
  cases c <;> simp

/-- C25: the actions of a group are pairwise different. -/
theorem C25_distinct (m : Mutation) (l : Lang) (o : Options) (first id : Nat) :
    (m.apply l o first id).group.acts.Nodup := by
  cases m with
  | bin s =>
    show (s.apply l o first id).group.acts.Nodup
    rw [s.group_acts]
    split
    · split <;> decide
    · have := nodup_act (f := Act.bin) (fun a b h => by cases h; rfl) (s.clauses_nodup o.optimise)
      rwa [List.map_map] at this
  | un s =>
    show (s.apply l o first id).group.acts.Nodup
    rw [s.group_acts]
    have h : ((s.clauses o.optimise).map (·.2)).Nodup := by
      unfold UnSite.clauses
      rw [List.map_append, List.map_map]
      refine List.nodup_append.2 ⟨?_, ?_, ?_⟩
      · exact nodup_map_filter (f := UOp.action) unaryCandidates_nodup
      · split <;> simp
      · intro a ha b hb hab
        subst hab
        obtain ⟨op, hop, rfl⟩ := List.mem_map.1 ha
        have h1 : ∀ op ∈ unaryCandidates, op.action ≠ .ReplaceWithOperand := by decide
        refine h1 op (List.mem_filter.1 hop).1 ?_
        revert hb
        split <;> simp
    have := nodup_act (f := Act.un) (fun a b h => by cases h; rfl) h
    rwa [List.map_map] at this
  | expr s =>
    show (s.apply l o first id).group.acts.Nodup
    rw [s.group_acts]
    have h : ((s.clauses l o.optimise).map (·.2)).Nodup := by
      have hs : ((s.clauses l o.optimise).map (·.2)).Sublist
          [.InsertPreInc, .InsertPreDec, .InsertLNot, .InsertNot, .InsertMinus, .ReplaceWithTrue,
           .ReplaceWithFalse, .ReplaceWithZeroInt, .ReplaceWithOneInt, .ReplaceWithMinusOneInt,
           .ReplaceWithZeroFloat, .ReplaceWithOneFloat, .ReplaceWithMinusOneFloat] := by
        have hc : (s.clauses l o.optimise).Sublist
            ([(.ins .preInc, .InsertPreInc), (.ins .preDec, .InsertPreDec)] ++
              ([(.ins .lnot, .InsertLNot)] ++ [(.ins .not, .InsertNot)] ++
                [(.ins .minus, .InsertMinus)]) ++
              ([(.lit (if l.cpp then .true_ else .one), .ReplaceWithTrue)] ++
                [(.lit (if l.cpp then .false_ else .zero), .ReplaceWithFalse)] ++
                [(.lit .zero, .ReplaceWithZeroInt)] ++ [(.lit .one, .ReplaceWithOneInt)] ++
                [(.lit .minusOne, .ReplaceWithMinusOneInt)] ++
                [(.lit .zeroF, .ReplaceWithZeroFloat)] ++ [(.lit .oneF, .ReplaceWithOneFloat)] ++
                [(.lit .minusOneF, .ReplaceWithMinusOneFloat)])) := by
          unfold ExprSite.clauses
          refine ((?_ : List.Sublist _ _).append ?_).append ?_
          · split <;> simp
          all_goals
            split
            · simp
            · repeat' first | exact ite_sublist _ _ | apply List.Sublist.append
        exact hc.map (·.2)
      exact hs.nodup (by decide)
    have := nodup_act (f := Act.expr) (fun a b h => by cases h; rfl) h
    rwa [List.map_map] at this
  | stmt s => simp [Mutation.apply, StmtSite.apply, Group.acts]

/-- C25: no action listed for a binary operator is the operator itself. -/
theorem C25_binary_new (s : BinSite) (l : Lang) (o : Options) (first id : Nat) (a : BAct)
    (h : .bin a ∈ (s.apply l o first id).group.acts) : a.change ≠ .op s.op := by
  rw [s.group_acts] at h
  split at h
  next hc =>
    simp only [Bool.and_eq_true] at hc
    have hop : s.op = .land ∨ s.op = .lor := by
      have := hc.2
      revert this
      cases s.op <;> simp [BOp.isLogical]
    rcases hop with hop | hop <;> rw [hop] at h ⊢ <;> simp at h <;>
      rcases h with rfl | rfl | rfl <;> decide
  · obtain ⟨c, hc, h⟩ := List.mem_map.1 h
    cases h
    unfold BinSite.clauses at hc
    rcases List.mem_append.1 hc with hc | hc
    · obtain ⟨op, hop, rfl⟩ := List.mem_map.1 hc
      have h1 := List.mem_filter.1 hop
      rw [s.candidates_new op h1.1]
      rintro heq
      cases heq
      simp at h1
    · revert hc
      unfold BinSite.argClauses
      split
      · simp
      split
      · simp
      split <;> split <;> simp <;> (try rintro (rfl | rfl)) <;> (try rintro rfl) <;> simp [BAct.change]

/-- C25: no action listed for a unary operator is the operator itself. -/
theorem C25_unary_new (s : UnSite) (l : Lang) (o : Options) (first id : Nat) (a : UAct)
    (h : .un a ∈ (s.apply l o first id).group.acts) : a.change ≠ .op s.op := by
  rw [s.group_acts] at h
  obtain ⟨c, hc, h⟩ := List.mem_map.1 h
  cases h
  unfold UnSite.clauses at hc
  rcases List.mem_append.1 hc with hc | hc
  · obtain ⟨op, hop, rfl⟩ := List.mem_map.1 hc
    have h1 := List.mem_filter.1 hop
    have h2 : ∀ op ∈ unaryCandidates, op.action.change = .op op := by decide
    rw [h2 op h1.1]
    rintro heq
    cases heq
    simp at h1
  · revert hc
    split <;> simp
    rintro rfl
    simp [UAct.change]

theorem mem_ite_nil {α : Type} {c : Prop} [Decidable c] {a : α} {xs : List α} :
    a ∈ (if c then xs else []) ↔ c ∧ a ∈ xs := by
  by_cases h : c <;> simp [h]

theorem mem_nil_ite {α : Type} {c : Prop} [Decidable c] {a : α} {xs : List α} :
    a ∈ (if c then [] else xs) ↔ ¬c ∧ a ∈ xs := by
  by_cases h : c <;> simp [h]

/-- C25: what the actions listed for an expression do is pairwise different (in
C, `ReplaceWithTrue` and `ReplaceWithOneInt` do the same). -/
theorem C25_expr_changes (s : ExprSite) (l : Lang) (o : Options) (first id : Nat) (a b : EAct)
    (ha : .expr a ∈ (s.apply l o first id).group.acts)
    (hb : .expr b ∈ (s.apply l o first id).group.acts) (h : a.change l.cpp = b.change l.cpp) :
    a = b := by
  rw [s.group_acts] at ha hb
  obtain ⟨c, hc, hca⟩ := List.mem_map.1 ha
  obtain ⟨d, hd, hdb⟩ := List.mem_map.1 hb
  cases hca
  cases hdb
  have hbool : ∀ c ∈ s.clauses l o.optimise,
      (c.2 = .ReplaceWithTrue ∨ c.2 = .ReplaceWithFalse → s.self.ty.isBool = true) ∧
      (c.2 = .ReplaceWithZeroInt ∨ c.2 = .ReplaceWithOneInt → s.self.ty.isBool = false) := by
    intro c hc
    unfold ExprSite.clauses at hc
    simp only [List.mem_append, mem_ite_nil, mem_nil_ite, Bool.and_eq_true, List.mem_cons,
      List.not_mem_nil, or_false] at hc
    rcases hc with (⟨_, rfl | rfl⟩ | ⟨_, (⟨_, rfl⟩ | ⟨_, rfl⟩) | ⟨_, rfl⟩⟩) |
      ⟨_, ((((((⟨h, rfl⟩ | ⟨h, rfl⟩) | ⟨h, rfl⟩) | ⟨h, rfl⟩) | ⟨h, rfl⟩) | ⟨h, rfl⟩) | ⟨h, rfl⟩) |
        ⟨h, rfl⟩⟩ <;> simp_all
  have h1 := hbool c hc
  have h2 := hbool d hd
  revert h h1 h2
  cases c.2 <;> cases d.2 <;> cases l.cpp <;> simp [EAct.change] <;> simp_all

/-- The actions of a sample group. -/
example : ((Sample.bin .add Sample.intVal Sample.intVal).apply Sample.cpp Sample.noopt 0 7).group.acts
    = [.bin .ReplaceWithDiv, .bin .ReplaceWithMul, .bin .ReplaceWithRem, .bin .ReplaceWithSub,
       .bin .ReplaceWithLHS, .bin .ReplaceWithRHS] := by decide

theorem filter_sublist_of_imp {α : Type} {p q : α → Bool} (xs : List α)
    (h : ∀ x, p x = true → q x = true) : (xs.filter p).Sublist (xs.filter q) := by
  have : xs.filter p = (xs.filter q).filter p := by
    rw [List.filter_filter]
    exact List.filter_congr fun x _ => by
      cases hp : p x
      · rfl
      · rw [h x hp]; rfl
  rw [this]
  exact List.filter_sublist

theorem ite_sublist_ite {α : Type} {c d : Bool} (x : List α) (h : c = true → d = true) :
    (if c then x else []).Sublist (if d then x else []) := by
  cases c
  · simp
  · simp [h rfl]

/-- C26: the actions listed with optimisation are a sub-sequence of those listed
without. -/
theorem C26_sublist (m : Mutation) (l : Lang) (o o' : Options) (first id : Nat)
    (ho : o.optimise = true) (ho' : o'.optimise = false) :
    (m.apply l o first id).group.acts.Sublist (m.apply l o' first id).group.acts := by
  cases m with
  | bin s =>
    show (s.apply l o first id).group.acts.Sublist (s.apply l o' first id).group.acts
    rw [s.group_acts, s.group_acts, ho, ho']
    split
    · exact .refl _
    · refine List.Sublist.map _ ?_
      unfold BinSite.clauses
      refine List.Sublist.append ?_ ?_
      · refine List.Sublist.map _ (filter_sublist_of_imp _ fun op => ?_)
        cases op == s.op <;> cases s.isValid op <;> simp
      · unfold BinSite.argClauses
        split
        · simp
        · split
          · simp
          · simp only [Bool.false_and, Bool.not_false, Bool.true_or, if_true, Bool.false_eq_true,
              if_false]
            exact (ite_sublist _ _).append (ite_sublist _ _)
  | un s =>
    show (s.apply l o first id).group.acts.Sublist (s.apply l o' first id).group.acts
    rw [s.group_acts, s.group_acts, ho, ho']
    refine List.Sublist.map _ ?_
    unfold UnSite.clauses
    refine List.Sublist.append ?_ ?_
    · refine List.Sublist.map _ (filter_sublist_of_imp _ fun op => ?_)
      cases op == s.op <;> cases s.isValid op <;> simp
    · exact ite_sublist _ _
  | expr s =>
    show (s.apply l o first id).group.acts.Sublist (s.apply l o' first id).group.acts
    rw [s.group_acts, s.group_acts, ho, ho']
    refine List.Sublist.map _ ?_
    unfold ExprSite.clauses
    refine (List.Sublist.append (.refl _) ?_).append ?_
    all_goals
      split
      · simp
      · repeat' first
          | (refine ite_sublist_ite _ ?_; simp; done)
          | (refine ite_sublist_ite _ ?_; simp; intros; simp [*]; done)
          | apply List.Sublist.append
  | stmt s => exact .refl _

/-- C26: logical operators in C have the same mutants with and without
optimisation. -/
theorem C26_c_logical (s : BinSite) (l : Lang) (o o' : Options) (first id : Nat)
    (hl : l.cpp = false) (hop : s.op.isLogical = true) :
    (s.apply l o first id).group = (s.apply l o' first id).group := by
  unfold BinSite.apply
  simp only [hl, hop, Bool.not_false, Bool.and_true, if_true]
  rfl

/-- A case where optimisation removes something: `x + 0`. -/
example : ((Sample.bin .add Sample.intVal (Sample.intConst 0)).apply Sample.cpp Sample.opts 0
      7).group.acts = [.bin .ReplaceWithDiv, .bin .ReplaceWithLHS] := by decide

end Dredd
