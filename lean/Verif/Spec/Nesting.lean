/-
Nesting of mutations in a tree, and nesting of the places they belong to (C90).
-/
import Verif.Spec.Syntax
import Verif.Spec.Tree

namespace Dredd

/-- In a tree, `a` is in a node somewhere below one that contains `b`. -/
inductive MTree.Beneath {α : Type} : MTree α → α → α → Prop
  | here {ms ks a b} : b ∈ ms → a ∈ MTree.postL ks → Beneath (.node ms ks) a b
  | deep {ms ks k a b} : k ∈ ks → Beneath k a b → Beneath (.node ms ks) a b

/-- In a tree, `a` and `b` are in the same node. -/
inductive MTree.Together {α : Type} : MTree α → α → α → Prop
  | here {ms ks a b} : a ∈ ms → b ∈ ms → Together (.node ms ks) a b
  | deep {ms ks k a b} : k ∈ ks → Together k a b → Together (.node ms ks) a b

/-- A mutation of something inside what another mutation changes: at a place further down in the
syntax tree, or of the expression that the other removes as a statement. -/
def Inside (a b : List Nat × Mutation) : Prop :=
  (∃ i r, a.1 = b.1 ++ i :: r) ∨ (a.1 = b.1 ∧ a.2.isRemoval = false ∧ b.2.isRemoval = true)

/-- Mutations of the same expression, or removals of the same statement. -/
def SameTarget (a b : List Nat × Mutation) : Prop := a.1 = b.1 ∧ a.2.isRemoval = b.2.isRemoval

mutual
/-- The groups of a tree of numbered points, without those that have no mutants. -/
def MTree.groups (l : Lang) (o : Options) (first : Nat) : MTree (Nat × List Nat × Mutation) → MTree Group
  | .node xs ks => .node ((xs.map fun x => (x.2.2.apply l o first x.1).group).filter (·.ids ≠ []))
      (MTree.groupsL l o first ks)
def MTree.groupsL (l : Lang) (o : Options) (first : Nat) :
    List (MTree (Nat × List Nat × Mutation)) → List (MTree Group)
  | [] => []
  | k :: ks => MTree.groups l o first k :: MTree.groupsL l o first ks
end

end Dredd
