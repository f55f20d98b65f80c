/-
Mutation trees: mutation_tree_node.cc.
-/
namespace Dredd

/-- `MutationTreeNode` (mutation_tree_node.h 30-66): mutations and children. -/
inductive MTree (α : Type) where
  | node (muts : List α) (kids : List (MTree α))
deriving Repr, Inhabited

namespace MTree
variable {α : Type}

/-- `GetMutations` (mutation_tree_node.h 42-45). -/
def muts : MTree α → List α
  | node ms _ => ms

/-- `GetChildren` (mutation_tree_node.cc 76-82). -/
def kids : MTree α → List (MTree α)
  | node _ ks => ks

/-- `AddMutation` (mutation_tree_node.cc 25-27). -/
def addMutation (t : MTree α) (m : α) : MTree α := node (t.muts ++ [m]) t.kids

/-- `AddChild` (mutation_tree_node.cc 21-23). -/
def addChild (t c : MTree α) : MTree α := node t.muts (t.kids ++ [c])

mutual
/-- `IsEmpty` (mutation_tree_node.cc 34-44). -/
def isEmpty : MTree α → Bool
  | node ms ks => ms.isEmpty && allEmpty ks

/-- The loop of `IsEmpty` (mutation_tree_node.cc 38-42). -/
def allEmpty : List (MTree α) → Bool
  | [] => true
  | k :: ks => isEmpty k && allEmpty ks
end

mutual
/-- `PruneEmptySubtrees` (mutation_tree_node.cc 64-74). -/
def prune : MTree α → MTree α
  | node ms ks => node ms (pruneList ks)

/-- The loop of `PruneEmptySubtrees` (mutation_tree_node.cc 66-73). -/
def pruneList : List (MTree α) → List (MTree α)
  | [] => []
  | k :: ks => if isEmpty k then pruneList ks else prune k :: pruneList ks
end

mutual
/-- `Compress` (mutation_tree_node.cc 46-62).  The `while` loop replaces a node
without mutations and with exactly one child by the contents of that child
(47-58); the recursive calls compress the children (59-61).  Here the loop is
a recursive call on the child, which also does the second part. -/
def compress : MTree α → MTree α
  | node [] [k] => compress k
  | node ms ks => node ms (compressList ks)

/-- The loop over the children (mutation_tree_node.cc 59-61). -/
def compressList : List (MTree α) → List (MTree α)
  | [] => []
  | k :: ks => compress k :: compressList ks
end

/-- `TidyUp` (mutation_tree_node.cc 29-32). -/
def tidyUp (t : MTree α) : MTree α := t.prune.compress

end MTree

end Dredd
