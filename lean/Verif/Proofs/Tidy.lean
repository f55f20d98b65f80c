/-
Helper lemmas about `tidyUp`.
-/
import Verif.Spec.Tree

namespace Dredd
namespace MTree
variable {α : Type}

mutual
theorem isEmpty_iff : (t : MTree α) → (t.isEmpty = true ↔ t.post = [])
  | node ms ks => by
    have := allEmpty_iff ks
    simp only [isEmpty, post, Bool.and_eq_true, List.isEmpty_iff, List.append_eq_nil_iff]
    constructor
    · intro ⟨h1, h2⟩; exact ⟨this.mp h2, h1⟩
    · intro ⟨h1, h2⟩; exact ⟨h2, this.mpr h1⟩
theorem allEmpty_iff : (ts : List (MTree α)) → (allEmpty ts = true ↔ postL ts = [])
  | [] => by simp [allEmpty, postL]
  | t :: ts => by
    simp [allEmpty, postL, isEmpty_iff t, allEmpty_iff ts]
end

mutual
theorem prune_post : (t : MTree α) → t.prune.post = t.post
  | node ms ks => by simp [prune, post, pruneList_post ks]
theorem pruneList_post : (ts : List (MTree α)) → postL (pruneList ts) = postL ts
  | [] => rfl
  | t :: ts => by
    simp only [pruneList, postL]
    split
    · rename_i h; rw [pruneList_post ts, (isEmpty_iff t).mp h]; rfl
    · simp [postL, prune_post t, pruneList_post ts]
end

mutual
theorem compress_post : (t : MTree α) → t.compress.post = t.post
  | node [] [k] => by simp [compress, post, postL, compress_post k]
  | node [] [] => by simp [compress, post, compressList]
  | node [] (a :: b :: ks) => by
    have := compressList_post (a :: b :: ks)
    simp only [compress, post, this]
  | node (m :: ms) ks => by simp [compress, post, compressList_post ks]
theorem compressList_post : (ts : List (MTree α)) → postL (compressList ts) = postL ts
  | [] => rfl
  | t :: ts => by simp [compressList, postL, compress_post t, compressList_post ts]
end



mutual
theorem chains_of_empty (above : List (List α)) :
    (t : MTree α) → (t.post = []) → t.chains above = []
  | node ms ks, h => by
    simp [post] at h
    simp [chains, h.2, chainsL_of_empty above ks h.1]
theorem chainsL_of_empty (above : List (List α)) :
    (ts : List (MTree α)) → (postL ts = []) → chainsL above ts = []
  | [], _ => by simp [chainsL]
  | t :: ts, h => by
    simp [postL] at h
    simp [chainsL, chains_of_empty above t h.1, chainsL_of_empty above ts h.2]
end

mutual
theorem prune_chains : (t : MTree α) → (above : List (List α)) →
    t.prune.chains above = t.chains above
  | node ms ks, above => by simp [prune, chains, pruneList_chains ks]
theorem pruneList_chains : (ts : List (MTree α)) → (above : List (List α)) →
    chainsL above (pruneList ts) = chainsL above ts
  | [], _ => rfl
  | t :: ts, above => by
    simp only [pruneList, chainsL]
    split
    · rename_i h
      rw [pruneList_chains ts above, chains_of_empty above t ((isEmpty_iff t).mp h)]; rfl
    · simp [chainsL, prune_chains t, pruneList_chains ts]
end

mutual
theorem compress_chains : (t : MTree α) → (above : List (List α)) →
    t.compress.chains above = t.chains above
  | node [] [k], above => by simp [compress, chains, chainsL, compress_chains k]
  | node [] [], above => by simp [compress, chains, compressList]
  | node [] (a :: b :: ks), above => by
    simp only [compress, chains]
    rw [compressList_chains (a :: b :: ks)]
  | node (m :: ms) ks, above => by simp [compress, chains, compressList_chains ks]
theorem compressList_chains : (ts : List (MTree α)) → (above : List (List α)) →
    chainsL above (compressList ts) = chainsL above ts
  | [], _ => rfl
  | t :: ts, above => by simp [compressList, chainsL, compress_chains t, compressList_chains ts]
end



mutual
theorem prune_noEmpty : (t : MTree α) → NoEmptySubtreeL t.prune.kids
  | node ms ks => by simpa [prune, kids] using pruneList_noEmpty ks
theorem pruneList_noEmpty : (ts : List (MTree α)) → NoEmptySubtreeL (pruneList ts)
  | [] => by simp [pruneList, NoEmptySubtreeL]
  | t :: ts => by
    simp only [pruneList]
    split
    · exact pruneList_noEmpty ts
    · rename_i h
      refine ⟨?_, pruneList_noEmpty ts⟩
      have hp := prune_post t
      have hk := prune_noEmpty t
      have hne : t.post ≠ [] := fun e => h ((isEmpty_iff t).mpr e)
      match ht : t.prune with
      | node ms ks =>
        rw [ht] at hp hk
        exact ⟨by rw [hp]; exact hne, hk⟩
end

mutual
theorem compress_noEmpty : (t : MTree α) → NoEmptySubtreeL t.kids → NoEmptySubtreeL t.compress.kids
  | node [] [k], h => by
    simp only [compress]
    refine compress_noEmpty k ?_
    have := h.1
    match k, this with
    | node _ _, h => exact h.2
  | node [] [], _ => by simp [compress, kids, compressList, NoEmptySubtreeL]
  | node [] (a :: b :: ks), h => by
    have := compressList_noEmpty (a :: b :: ks) h
    simpa only [compress, kids] using this
  | node (m :: ms) ks, h => by simpa [compress, kids] using compressList_noEmpty ks h
theorem compressList_noEmpty : (ts : List (MTree α)) → NoEmptySubtreeL ts →
    NoEmptySubtreeL (compressList ts)
  | [], _ => by simp [compressList, NoEmptySubtreeL]
  | t :: ts, h => by
    simp only [compressList, NoEmptySubtreeL]
    refine ⟨?_, compressList_noEmpty ts h.2⟩
    have hp := compress_post t
    have hk : NoEmptySubtreeL t.kids := by
      match t, h.1 with
      | node _ _, h => exact h.2
    have hk' := compress_noEmpty t hk
    have hne : t.post ≠ [] := by
      match t, h.1 with
      | node _ _, h => exact h.1
    match ht : t.compress with
    | node ms ks =>
      rw [ht] at hp hk'
      exact ⟨by rw [hp]; exact hne, hk'⟩
end

theorem compressList_length (ts : List (MTree α)) : (compressList ts).length = ts.length := by
  induction ts with
  | nil => rfl
  | cons t ts ih => simp [compressList, ih]

mutual
theorem compress_noUseless : (t : MTree α) → NoUselessNode t.compress
  | node [] [k] => by simpa [compress] using compress_noUseless k
  | node [] [] => by simp [compress, compressList, NoUselessNode, NoUselessNodeL]
  | node [] (a :: b :: ks) => by
    simp only [compress, NoUselessNode]
    exact ⟨by simp [compressList_length], compressList_noUseless (a :: b :: ks)⟩
  | node (m :: ms) ks => by
    simp only [compress, NoUselessNode]
    exact ⟨by simp, compressList_noUseless ks⟩
theorem compressList_noUseless : (ts : List (MTree α)) → NoUselessNodeL (compressList ts)
  | [] => by simp [compressList, NoUselessNodeL]
  | t :: ts => ⟨compress_noUseless t, compressList_noUseless ts⟩
end

mutual
theorem prune_of_noEmpty : (t : MTree α) → NoEmptySubtreeL t.kids → t.prune = t
  | node ms ks, h => by simp [prune, pruneList_of_noEmpty ks h]
theorem pruneList_of_noEmpty : (ts : List (MTree α)) → NoEmptySubtreeL ts → pruneList ts = ts
  | [], _ => rfl
  | t :: ts, h => by
    have hne : t.post ≠ [] := by
      match t, h.1 with
      | node _ _, h => exact h.1
    have hk : NoEmptySubtreeL t.kids := by
      match t, h.1 with
      | node _ _, h => exact h.2
    have : ¬ t.isEmpty = true := fun e => hne ((isEmpty_iff t).mp e)
    simp [pruneList, this, prune_of_noEmpty t hk, pruneList_of_noEmpty ts h.2]
end

mutual
theorem compress_of_noUseless : (t : MTree α) → NoUselessNode t → t.compress = t
  | node [] [k], h => by simp [NoUselessNode] at h
  | node [] [], _ => by simp [compress, compressList]
  | node [] (a :: b :: ks), h => by
    have := compressList_of_noUseless (a :: b :: ks) h.2
    simp only [compress, this]
  | node (m :: ms) ks, h => by simp [compress, compressList_of_noUseless ks h.2]
theorem compressList_of_noUseless : (ts : List (MTree α)) → NoUselessNodeL ts →
    compressList ts = ts
  | [], _ => rfl
  | t :: ts, h => by
    simp [compressList, compress_of_noUseless t h.1, compressList_of_noUseless ts h.2]
end

theorem tidyUp_post (t : MTree α) : t.tidyUp.post = t.post := by
  simp [tidyUp, compress_post, prune_post]

end MTree
end Dredd
