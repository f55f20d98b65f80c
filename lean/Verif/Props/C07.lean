/-
C07: tidying the mutation tree loses no mutation and no nesting relation.
-/
import Verif.Proofs.Tidy

namespace Dredd
open MTree
variable {α : Type}

/-- Every mutation is kept, in the order of application. -/
theorem C07_order_kept (t : MTree α) : t.tidyUp.post = t.post := tidyUp_post t

/-- For every mutation the chain of mutation-carrying ancestors is kept. -/
theorem C07_ancestors_kept (t : MTree α) :
    t.tidyUp.chains [] = t.chains [] := by
  simp [tidyUp, compress_chains, prune_chains]

/-- No proper subtree is empty afterwards. -/
theorem C07_no_empty_subtree (t : MTree α) : NoEmptySubtreeL t.tidyUp.kids :=
  compress_noEmpty _ (prune_noEmpty t)

/-- No node without mutations has exactly one child afterwards. -/
theorem C07_no_useless_node (t : MTree α) : NoUselessNode t.tidyUp := compress_noUseless _

/-- Simplifying again changes nothing. -/
theorem C07_idempotent (t : MTree α) : t.tidyUp.tidyUp = t.tidyUp := by
  have h1 := C07_no_empty_subtree t
  have h2 := C07_no_useless_node t
  rw [tidyUp, prune_of_noEmpty _ h1, compress_of_noUseless _ h2]

/-- The whole tree is empty afterwards exactly if it had no mutations, and then
it is a single node. -/
theorem C07_empty (t : MTree α) (h : t.post = []) : t.tidyUp = node [] [] := by
  have hp := C07_order_kept t
  have h1 := C07_no_empty_subtree t
  rw [h] at hp
  match ht : t.tidyUp with
  | node ms ks =>
    rw [ht] at hp h1
    simp [post] at hp
    obtain ⟨hk, rfl⟩ := hp
    match ks, hk, h1 with
    | [], _, _ => rfl
    | k :: ks, hk, h1 =>
      simp [postL] at hk
      exfalso
      match k, h1.1 with
      | node _ _, hh => exact hh.1 hk.1

/-- A tree with an empty branch, a chain of nodes without mutations, and two
mutations one inside the other. -/
example : (node [] [node [] [node [] []], node [] [node [1] [node [] [node [2, 3] []]]]] : MTree Nat).tidyUp
    = node [1] [node [2, 3] []] := by
  simp [tidyUp, prune, pruneList, isEmpty, allEmpty, compress, compressList]

end Dredd
