/-
C45: the group of a mutation lists as many instances as the code it instruments
checks for.
-/
import Verif.Proofs.Run
import Verif.Spec.Samples

namespace Dredd

/-- Offsets that a function compares its id argument with. -/
def MutFn.guards (f : MutFn) : List Nat :=
  f.lines.filterMap fun ln => match ln with | .guard k _ => some k | _ => none

/-- Numbers of mutants that a function passes to the coverage recorder. -/
def MutFn.records (f : MutFn) : List Nat :=
  f.lines.filterMap fun ln => match ln with | .record n => some n | _ => none

theorem guardsFrom_guards {α} (k) (cs : List (RetE × α)) :
    (guardsFrom k cs).filterMap (fun ln => match ln with | .guard k _ => some k | _ => none)
      = List.range' k cs.length := by
  induction cs generalizing k with
  | nil => rfl
  | cons c cs ih => simp [guardsFrom, ih, List.range'_succ]

theorem guardsFrom_records {α} (k) (cs : List (RetE × α)) :
    (guardsFrom k cs).filterMap (fun ln => match ln with | .record n => some n | _ => none)
      = [] := by
  induction cs generalizing k with
  | nil => rfl
  | cons c cs ih => simp [guardsFrom, ih]

/-- The id counter advances by the number of reported instances, and these are
numbered consecutively from the old value of the counter. -/
theorem C45_counter (l : Lang) (o : Options) (first id : Nat) (m : Mutation) :
    let a := m.apply l o first id
    a.nextId = id + a.group.ids.length ∧ a.group.ids = List.range' id a.group.ids.length := by
  intro a
  simp only [a, Mutation.apply_nextId, apply_ids, List.length_range', and_self]

/-- A mutation of a unary operator, an expression, or a binary operator other
than a C logical operator generates one function.  In a mutating build it
compares its argument with exactly the offsets `0, …, n-1` and records nothing;
in a tracking build it makes no comparison and records exactly once, passing
`n`; `n` being the number of reported instances. -/
theorem C45_function (l : Lang) (o : Options) (first id : Nat) (m : Mutation)
    (hm : (∃ s, m = .un s) ∨ (∃ s, m = .expr s) ∨
      ∃ s, m = .bin s ∧ ¬(l.cpp = false ∧ s.op.isLogical = true)) :
    let a := m.apply l o first id
    ∃ f, a.decls = [f] ∧
      f.guards = (if o.track then [] else List.range a.group.ids.length) ∧
      f.records = (if o.track then [a.group.ids.length] else []) := by
  intro a
  have ha : a = m.apply l o first id := rfl
  have hids : a.group.ids.length = m.count l o.optimise := by
    rw [ha, apply_ids, List.length_range']
  rw [hids, ha]
  rcases hm with ⟨s, rfl⟩ | ⟨s, rfl⟩ | ⟨s, rfl, hs⟩
  · refine ⟨_, rfl, ?_⟩
    simp only [UnSite.genFn, UnSite.genBody_eq, runClauses_eq, MutFn.guards, MutFn.records,
      Mutation.count]
    cases o.track <;> simp [guardsFrom_guards, guardsFrom_records, List.range_eq_range']
  · refine ⟨_, rfl, ?_⟩
    simp only [ExprSite.genFn, ExprSite.genBody_eq, runClauses_eq, MutFn.guards, MutFn.records,
      Mutation.count]
    cases o.track <;> simp [guardsFrom_guards, guardsFrom_records, List.range_eq_range']
  · have hs' : (!l.cpp && s.op.isLogical) = false := by
      cases h1 : l.cpp <;> cases h2 : s.op.isLogical <;> simp_all
    have : (Mutation.apply l o first id (.bin s)).decls = [s.genFn l o id] := by
      simp only [Mutation.apply, BinSite.apply, hs', Bool.false_eq_true, if_false]
    refine ⟨_, this, ?_⟩
    simp only [BinSite.genFn, BinSite.genBody_eq, runClauses_eq, MutFn.guards, MutFn.records,
      Mutation.count, hs', Bool.false_eq_true, if_false]
    cases o.track <;> simp [guardsFrom_guards, guardsFrom_records, List.range_eq_range']

/-- A C logical operator has three instances; the functions generated for it in a
mutating build together compare with the offsets 0, 1 and 2 (the swap, offset 0,
in all three functions), and in a tracking build one function is generated, which
records 3. -/
theorem C45_c_logical (l : Lang) (o : Options) (first id : Nat) (s : BinSite)
    (hl : l.cpp = false) (hs : s.op.isLogical = true) :
    let a := Mutation.apply l o first id (.bin s)
    a.group.ids.length = 3 ∧
    a.decls.map MutFn.guards = (if o.track then [[]] else [[0, 2], [0, 1], [0]]) ∧
    a.decls.map MutFn.records = (if o.track then [[3]] else [[], [], []]) := by
  intro a
  have ha : a = s.applyCLogical l o first id := by
    simp [a, Mutation.apply, BinSite.apply, hl, hs]
  rw [ha]
  cases ht : o.track <;>
    simp [BinSite.applyCLogical, Group.ids, GenSt.inst, MutFn.guards, MutFn.records, cLogicalLhsFn,
      cLogicalRhsFn, cLogicalOuterFn, ht]

/-- Removal of a statement has one instance and generates no function; the text
put before the statement tests, or in a tracking build records with count 1, the
statement's id. -/
theorem C45_stmt (l : Lang) (o : Options) (first id : Nat) (s : StmtSite) :
    let a := Mutation.apply l o first id (.stmt s)
    a.group.ids = [id] ∧ a.decls = [] ∧
    a.edits.head? = some (.before s.span.b
      (if o.track then
        [.txt (t!"__dredd_record_covered_mutants" ++ nodeComment o s.node ++ t!"("),
         .id (id - first), .txt t!", 1); "]
       else
        [.txt (t!"if (!__dredd_enabled_mutation" ++ nodeComment o s.node ++ t!"("),
         .id (id - first), .txt t!")) { "])) := by
  intro a
  cases ht : o.track <;>
    simp [a, Mutation.apply, StmtSite.apply, StmtSite.edits, Group.ids, ht]

/-- Six instances for an addition of two variables. -/
example : (Mutation.apply Sample.cpp Sample.opts 0 7
    (.bin (Sample.bin .add Sample.intVal Sample.intVal))).group.ids = [7, 8, 9, 10, 11, 12] := by
  decide +kernel

end Dredd
