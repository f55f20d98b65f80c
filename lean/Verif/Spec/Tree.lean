/-
Specification: trees, the order in which their contents are applied, chains of
ancestors, and what it means for a flat list of nodes to encode a tree.  Nothing
here refers to how the tool computes anything.
-/
import Verif.Model.TransUnit

namespace Dredd

namespace MTree
variable {α β : Type}

mutual
/-- Contents in the order of application: children first, left to right, then
the node's own. -/
def post : MTree α → List α
  | node ms ks => postL ks ++ ms
def postL : List (MTree α) → List α
  | [] => []
  | k :: ks => post k ++ postL ks
end

mutual
/-- Number of nodes. -/
def size : MTree α → Nat
  | node _ ks => sizeL ks + 1
def sizeL : List (MTree α) → Nat
  | [] => 0
  | k :: ks => size k + sizeL ks
end

mutual
/-- The chains: for every element, in order of application, the contents of the
proper ancestors of its node that have any contents, outermost first, together
with the contents of its own node. -/
def chains (above : List (List α)) : MTree α → List (List (List α) × α)
  | node ms ks =>
    let here := if ms = [] then above else above ++ [ms]
    chainsL here ks ++ ms.map (fun m => (here, m))
def chainsL (above : List (List α)) : List (MTree α) → List (List (List α) × α)
  | [] => []
  | k :: ks => chains above k ++ chainsL above ks
end

mutual
/-- No node (the given one included) is without contents in its whole
subtree. -/
def NoEmptySubtree : MTree α → Prop
  | node ms ks => post (node ms ks) ≠ [] ∧ NoEmptySubtreeL ks
def NoEmptySubtreeL : List (MTree α) → Prop
  | [] => True
  | k :: ks => NoEmptySubtree k ∧ NoEmptySubtreeL ks
end

mutual
/-- No node without contents has exactly one child. -/
def NoUselessNode : MTree α → Prop
  | node ms ks => ¬(ms = [] ∧ ks.length = 1) ∧ NoUselessNodeL ks
def NoUselessNodeL : List (MTree α) → Prop
  | [] => True
  | k :: ks => NoUselessNode k ∧ NoUselessNodeL ks
end

mutual
/-- Same shape, other contents. -/
def mapNodes (f : List α → List β) : MTree α → MTree β
  | node ms ks => node (f ms) (mapNodesL f ks)
def mapNodesL (f : List α → List β) : List (MTree α) → List (MTree β)
  | [] => []
  | k :: ks => mapNodes f k :: mapNodesL f ks
end

end MTree

mutual
/-- Node `i` of the flat list is the root of an encoding of the tree. -/
def Encodes (nodes : List PNode) : Nat → MTree Group → Prop
  | i, .node gs ks => ∃ n, nodes[i]? = some n ∧ n.groups = gs ∧ EncodesL nodes n.children ks
def EncodesL (nodes : List PNode) : List Nat → List (MTree Group) → Prop
  | [], [] => True
  | c :: cs, k :: ks => Encodes nodes c k ∧ EncodesL nodes cs ks
  | _, _ => False
end

/-- The ids in a tree of groups, in order of application. -/
def treeIds (t : MTree Group) : List Nat := t.post.flatMap Group.ids

end Dredd
