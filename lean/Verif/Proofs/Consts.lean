/-
Where the constants that the visitor records come from.
-/
import Verif.Proofs.Places
import Verif.Model.Analyse

namespace Dredd

/-- What the visitor has recorded satisfies the given conditions. -/
def Noted (A S G : ConstArg → Prop) (st : VState) : Prop :=
  (∀ a ∈ st.arrays, A a) ∧ (∀ a ∈ st.asserts, S a) ∧ (∀ a ∈ st.args, G a)

variable {A S G : ConstArg → Prop}

theorem Noted.add {st p ms} (h : Noted A S G st) : Noted A S G (VState.add st p ms) := h

theorem Noted.inChild {st f} (h : Noted A S G st) (hf : ∀ st, Noted A S G st → Noted A S G (f st)) :
    Noted A S G (VState.inChild st f) :=
  hf { st with cur := .node [] [] } h

theorem Noted.visitDecl {st d} (h : Noted A S G st) : Noted A S G (visitDecl d st) := by
  unfold Dredd.visitDecl
  split <;> exact h

/-- The conditions hold for everything that can be recorded at the nodes that the
visitor gets to. -/
structure Notes (l : Lang) (root : Node) (A S G : ConstArg → Prop) : Prop where
  decl : ∀ c d ks st, Reach l root c (.decl d ks) → (d.isTU = true ∨ d.range.isSome = true) →
    Noted A S G st → Noted A S G (noteDecl l d st)
  frame : ∀ c s ks, Reach l root c (.stmt s ks) → ∀ a ∈ frameArg c.above s, G a

theorem stmtStep_noted {l : Lang} {root : Node} (hn : Notes l root A S G) (opt : Bool) (c : Ctx) (s : AStmt)
    (ks : List Node) (kids last block : Ctx → VState → VState) (hr : Reach l root c (.stmt s ks))
    (hk : skipStmt c.above s = false → s.kind ≠ .case_ → ∀ st, Noted A S G st → Noted A S G (kids c st))
    (hl : skipStmt c.above s = false → s.kind = .case_ → ∀ st, Noted A S G st → Noted A S G (last c st))
    (hb : skipStmt c.above s = false → s.kind = .compound → ∀ st, Noted A S G st → Noted A S G (block c st))
    (st : VState) (h : Noted A S G st) : Noted A S G (stmtStep opt c s ks kids last block st) := by
  unfold stmtStep
  split
  · refine ⟨h.1, h.2.1, ?_⟩
    intro a ha
    rcases List.mem_append.mp ha with ha | ha
    · exact h.2.2 a ha
    · exact hn.frame c s ks hr a ha
  · rename_i hs
    have hs : skipStmt c.above s = false := by simpa using hs
    refine h.inChild fun st h => ?_
    split
    · exact hb hs ‹_› st h
    · exact hl hs ‹_› st h
    · rename_i hkind
      exact (hk hs (by simp [hkind]) st h).add
    · exact hk hs ‹_› st h

mutual
theorem traverse_noted {l : Lang} {root : Node} (hn : Notes l root A S G) (opt : Bool) (c : Ctx) :
    (n : Node) → Reach l root c n → ∀ st, Noted A S G st → Noted A S G (traverse l opt c n st)
  | .decl d ks, hr, st, h => by
    rw [traverse]
    split
    · exact h
    · rename_i hd
      have hd' : d.isTU = true ∨ d.range.isSome = true := by
        cases h1 : d.isTU <;> cases h2 : d.range.isSome <;> simp [h1, h2] at hd ⊢
      have h1 := hn.decl c d ks st hr hd' h
      unfold declStep
      split
      · exact h1
      · rename_i c' hc'
        exact (traverseL_noted hn opt c' (.decl d) 0 ks
          (fun j k hj => .decl hr hd' hc' (by simpa using hj)) _ h1).visitDecl
  | .stmt s ks, hr, st, h => by
    rw [traverse]
    refine stmtStep_noted hn opt c s ks _ _ _ hr ?_ ?_ ?_ st h
    · intro hs hk
      exact traverseL_noted hn opt c (.stmt s) 0 ks fun j k hj => .stmt hr hs hk (by simpa using hj)
    · intro hs hk
      exact traverseLast_noted hn opt c (.stmt s) 0 ks fun j k hj hl =>
        .label hr (.inl hk) (.inl hs) (by simpa using hj) (by simpa using hl)
    · intro hs hk
      exact blockItems_noted hn opt c (.stmt s) 0 ks (by simp [NodeInfo.kind?, isItem, hk])
        fun j k hj => .stmt hr hs (by simp [hk]) (by simpa using hj)
  | .other k ks, hr, st, h => by
    rw [traverse]
    split
    · exact h
    · rename_i hs
      exact traverseL_noted hn opt c (.other k) 0 ks
        (fun j k' hj => .other hr (by simpa using hs) (by simpa using hj)) st h

theorem traverseL_noted {l : Lang} {root : Node} (hn : Notes l root A S G) (opt : Bool) (c : Ctx)
    (n : NodeInfo) (i : Nat) :
    (ks : List Node) → (∀ j k, ks[j]? = some k → Reach l root (c.enter n (i + j)) k) →
    ∀ st, Noted A S G st → Noted A S G (traverseL l opt c n i ks st)
  | [], _, st, h => by rw [traverseL]; exact h
  | k :: ks, hr, st, h => by
    rw [traverseL]
    refine traverseL_noted hn opt c n (i + 1) ks ?_ _
      (traverse_noted hn opt (c.enter n i) k (hr 0 k rfl) st h)
    intro j k' hj
    have := hr (j + 1) k' hj
    rwa [show i + (j + 1) = i + 1 + j by omega] at this

theorem traverseLast_noted {l : Lang} {root : Node} (hn : Notes l root A S G) (opt : Bool) (c : Ctx)
    (n : NodeInfo) (i : Nat) :
    (ks : List Node) →
    (∀ j k, ks[j]? = some k → j + 1 = ks.length → Reach l root (c.enter n (i + j)) k) →
    ∀ st, Noted A S G st → Noted A S G (traverseLast l opt c n i ks st)
  | [], _, st, h => by rw [traverseLast]; exact h
  | [k], hr, st, h => by
    rw [traverseLast]
    exact traverse_noted hn opt (c.enter n i) k (hr 0 k rfl rfl) st h
  | k :: k' :: ks, hr, st, h => by
    have e : traverseLast l opt c n i (k :: k' :: ks) st = traverseLast l opt c n (i + 1) (k' :: ks) st := by
      simp [traverseLast]
    rw [e]
    refine traverseLast_noted hn opt c n (i + 1) (k' :: ks) ?_ st h
    intro j k'' hj hl
    have := hr (j + 1) k'' hj (by simpa using hl)
    rwa [show i + (j + 1) = i + 1 + j by omega] at this

theorem blockItems_noted {l : Lang} {root : Node} (hn : Notes l root A S G) (opt : Bool) (c : Ctx)
    (n : NodeInfo) (i : Nat) :
    (ks : List Node) → isItem (n :: c.above) = true →
    (∀ j k, ks[j]? = some k → Reach l root (c.enter n (i + j)) k) →
    ∀ st, Noted A S G st → Noted A S G (blockItems l opt c n i ks st)
  | [], _, _, st, h => by rw [blockItems]; exact h
  | k :: ks, hi, hr, st, h => by
    rw [blockItems]
    refine blockItems_noted hn opt c n (i + 1) ks hi ?_ _
      (blockItem_noted hn opt (c.enter n i) k hi (hr 0 k rfl) st h)
    intro j k' hj
    have := hr (j + 1) k' hj
    rwa [show i + (j + 1) = i + 1 + j by omega] at this

theorem blockItem_noted {l : Lang} {root : Node} (hn : Notes l root A S G) (opt : Bool) (c : Ctx) :
    (n : Node) → isItem c.above = true → Reach l root c n →
    ∀ st, Noted A S G st → Noted A S G (blockItem l opt c n st)
  | .decl d ks, _, _, st, h => by simpa [blockItem] using h
  | .other k ks, _, _, st, h => by simpa [blockItem] using h
  | .stmt s ks, hi, hr, st, h => by
    have lab : (s.kind = .case_ ∨ s.kind = .default_) →
        Noted A S G (blockLast l opt c (.stmt s) 0 ks st) := by
      intro hk
      refine blockLast_noted hn opt c (.stmt s) 0 ks ?_ ?_ st h
      · rcases hk with hk | hk <;> simp [isItem, NodeInfo.kind?, hk, hi]
      · intro j k hj hl
        exact .label hr hk (.inr hi) (by simpa using hj) (by simpa using hl)
    rw [blockItem]
    split
    · exact lab (.inl ‹_›)
    · exact lab (.inr ‹_›)
    · rename_i hk1 hk2
      split
      · exact h
      · refine h.inChild fun st h => Noted.add ?_
        refine stmtStep_noted hn opt c s ks _ _ _ hr ?_ ?_ ?_ st h
        · intro hs hk
          exact traverseL_noted hn opt c (.stmt s) 0 ks fun j k hj => .stmt hr hs hk (by simpa using hj)
        · intro _ hk
          exact absurd hk hk1
        · intro hs hk
          exact blockItems_noted hn opt c (.stmt s) 0 ks (by simp [NodeInfo.kind?, isItem, hk])
            fun j k hj => .stmt hr hs (by simp [hk]) (by simpa using hj)

theorem blockLast_noted {l : Lang} {root : Node} (hn : Notes l root A S G) (opt : Bool) (c : Ctx)
    (n : NodeInfo) (i : Nat) :
    (ks : List Node) → isItem (n :: c.above) = true →
    (∀ j k, ks[j]? = some k → j + 1 = ks.length → Reach l root (c.enter n (i + j)) k) →
    ∀ st, Noted A S G st → Noted A S G (blockLast l opt c n i ks st)
  | [], _, _, st, h => by rw [blockLast]; exact h
  | [k], hi, hr, st, h => by
    rw [blockLast]
    exact blockItem_noted hn opt (c.enter n i) k hi (hr 0 k rfl rfl) st h
  | k :: k' :: ks, hi, hr, st, h => by
    have e : blockLast l opt c n i (k :: k' :: ks) st = blockLast l opt c n (i + 1) (k' :: ks) st := by
      simp [blockLast]
    rw [e]
    refine blockLast_noted hn opt c n (i + 1) (k' :: ks) hi ?_ st h
    intro j k'' hj hl
    have := hr (j + 1) k'' hj (by simpa using hl)
    rwa [show i + (j + 1) = i + 1 + j by omega] at this
end

theorem visitTU_noted {l : Lang} {root : Node} (hn : Notes l root A S G) (opt : Bool) :
    Noted A S G (visitTU l opt root) :=
  traverse_noted hn opt ⟨[], [], []⟩ root .root VState.start
    ⟨by simp [VState.start], by simp [VState.start], by simp [VState.start]⟩

end Dredd
