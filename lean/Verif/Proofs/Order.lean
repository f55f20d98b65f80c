/-
Helper lemmas about the order of evaluation.
-/
import Verif.Spec.Order

namespace Dredd

variable {S V α β : Type}

open Comp (next lift ofOption)

theorem Comp.to_eq (M : Machine S V) (ty : Text) (c : Comp S V) (h : c.HasType M ty) :
    c.to M ty = c := by
  refine Comp.ext fun s r => ⟨?_, fun hr => ⟨r, hr, ?_⟩⟩
  · rintro ⟨r1, h1, h2⟩
    cases r1 with
    | done v s1 =>
      simp only [next, lift, h _ _ _ h1] at h2
      exact h2 ▸ h1
    | stop s1 => exact h2 ▸ h1
    | ub => exact h2 ▸ h1
    | timeout => exact h2 ▸ h1
  · cases r with
    | done v s1 => simp only [next, lift, h _ _ _ hr]
    | stop s1 => rfl
    | ub => rfl
    | timeout => rfl

/-- Results of a sequence come from the second part. -/
theorem Comp.bind_done {c : Comp S α} {k : α → Comp S β} {s : S} {v : β} {s' : S}
    (h : Comp.bind c k s (.done v s')) : ∃ a s1, c s (.done a s1) ∧ k a s1 (.done v s') := by
  obtain ⟨r1, h1, h2⟩ := h
  cases r1 with
  | done a s1 => exact ⟨a, s1, h1, h2⟩
  | stop s1 => cases h2
  | ub => cases h2
  | timeout => cases h2

theorem Comp.lift_done {f : S → Option (α × S)} {s s' : S} {v : α}
    (h : Comp.lift f s (.done v s')) : f s = some (v, s') := by
  simp only [lift] at h
  cases hf : f s with
  | none => rw [hf] at h; cases h
  | some p => rw [hf] at h; cases h; rfl

theorem Comp.ofOption_done {o : Option α} {s s' : S} {v : α}
    (h : Comp.ofOption o s (.done v s')) : o = some v ∧ s' = s := by
  cases o with
  | none => cases h
  | some a => cases h; exact ⟨rfl, rfl⟩

theorem Comp.yields_both {o : Order} {c1 : Comp S α} {c2 : Comp S β} {p : α × β}
    (h : (Comp.both o c1 c2).Yields p) : c1.Yields p.1 ∧ c2.Yields p.2 := by
  have l : ∀ s s', Comp.bind c1 (fun a => Comp.bind c2 fun b => .pure (a, b)) s (.done p s') →
      c1.Yields p.1 ∧ c2.Yields p.2 := by
    intro s s' hd
    obtain ⟨a, s1, h1, h2⟩ := Comp.bind_done hd
    obtain ⟨b, s2, h3, h4⟩ := Comp.bind_done h2
    cases h4
    exact ⟨⟨_, _, h1⟩, _, _, h3⟩
  have r : ∀ s s', Comp.bind c2 (fun b => Comp.bind c1 fun a => .pure (a, b)) s (.done p s') →
      c1.Yields p.1 ∧ c2.Yields p.2 := by
    intro s s' hd
    obtain ⟨a, s1, h1, h2⟩ := Comp.bind_done hd
    obtain ⟨b, s2, h3, h4⟩ := Comp.bind_done h2
    cases h4
    exact ⟨⟨_, _, h3⟩, _, _, h1⟩
  obtain ⟨s, s', hd⟩ := h
  cases o with
  | lhsFirst => exact l s s' hd
  | rhsFirst => exact r s s' hd
  | unseq =>
    rcases hd with hd | hd
    · exact l s s' hd
    · exact r s s' hd

/-- What follows a computation matters only for values that it may have. -/
theorem Comp.bind_congr {c : Comp S α} {k k' : α → Comp S β}
    (h : ∀ a, c.Yields a → k a = k' a) : Comp.bind c k = Comp.bind c k' := by
  have key : ∀ {k k' : α → Comp S β}, (∀ a, c.Yields a → k a = k' a) → ∀ s r,
      Comp.bind c k s r → Comp.bind c k' s r := by
    rintro k k' h s r ⟨r1, h1, h2⟩
    refine ⟨r1, h1, ?_⟩
    cases r1 with
    | done a s1 =>
      simp only [next] at h2 ⊢
      rw [← h a ⟨_, _, h1⟩]
      exact h2
    | stop s1 => exact h2
    | ub => exact h2
    | timeout => exact h2
  exact Comp.ext fun s r => ⟨key h s r, key (fun a ha => (h a ha).symm) s r⟩

theorem evalBin_hasType {M : Machine S V} {op : BOp} {ty : Text} {c1 c2 : Comp S V}
    (h : M.ResultType op ty c1 c2) (hc : op ≠ .comma) : (M.evalBin op c1 c2).HasType M ty := by
  intro s v s' hd
  unfold Machine.evalBin at hd
  split at hd
  · rename_i hl
    unfold Machine.logical at hd
    obtain ⟨v1, s1, -, h2⟩ := Comp.bind_done hd
    obtain ⟨b1, s2, -, h4⟩ := Comp.bind_done h2
    split at h4
    · cases h4
      exact h.bool hl _ _
    · obtain ⟨v2, s3, -, h5⟩ := Comp.bind_done h4
      obtain ⟨b2, s4, -, h6⟩ := Comp.bind_done h5
      cases h6
      exact h.bool hl _ _
  · rename_i hl
    split at hd
    · rename_i h'
      exact absurd (by simpa using h') hc
    · obtain ⟨p, s1, h1, h2⟩ := Comp.bind_done hd
      have hy := Comp.yields_both ⟨_, _, h1⟩
      exact h.bin (by simpa using hl) _ _ hy.1 hy.2 _ _ _ (Comp.lift_done h2)

theorem evalUn_hasType {M : Machine S V} {op : UOp} {ty : Text} {c : Comp S V}
    (h : M.ResultTypeUn op ty c) : (M.evalUn op c).HasType M ty := by
  intro s v s' hd
  unfold Machine.evalUn at hd
  split at hd
  · rename_i hl
    obtain ⟨v1, s1, -, h2⟩ := Comp.bind_done hd
    obtain ⟨b1, s2, -, h4⟩ := Comp.bind_done h2
    cases h4
    exact h.bool (by simpa using hl) _ _
  · rename_i hl
    obtain ⟨v1, s1, h1, h2⟩ := Comp.bind_done hd
    exact h.un (by simpa using hl) _ ⟨_, _, h1⟩ _ _ _ (Comp.lift_done h2)

theorem both_pure (o : Order) (a : α) (b : β) :
    Comp.both o (Comp.pure a : Comp S α) (Comp.pure b) = Comp.pure (a, b) := by
  cases o <;> simp [Comp.both]
  refine Comp.ext fun s r => ?_
  simp [Comp.or]

theorem both_pure_left (o : Order) (a : α) (c : Comp S β) :
    Comp.both o (Comp.pure a) c = Comp.bind c fun b => Comp.pure (a, b) := by
  cases o <;> simp [Comp.both]
  refine Comp.ext fun s r => ?_
  simp [Comp.or]

theorem both_pure_right (o : Order) (c : Comp S α) (b : β) :
    Comp.both o c (Comp.pure b) = Comp.bind c fun a => Comp.pure (a, b) := by
  cases o <;> simp [Comp.both]
  refine Comp.ext fun s r => ?_
  simp [Comp.or]

theorem both_commute {c1 c2 : Comp S V} (h : c1.Commute c2) (o o' : Order) :
    Comp.both o c1 c2 = Comp.both o' c1 c2 := by
  have hu : Comp.both .unseq c1 c2 = Comp.both .lhsFirst c1 c2 := by
    refine Comp.ext fun s r => ?_
    have h' : Comp.both .lhsFirst c1 c2 s r ↔ Comp.both .rhsFirst c1 c2 s r := by rw [h]
    constructor
    · rintro (h1 | h1)
      · exact h1
      · exact h'.2 h1
    · exact fun h1 => .inl h1
  have hall : ∀ o, Comp.both o c1 c2 = Comp.both .lhsFirst c1 c2 := by
    intro o
    cases o
    · exact hu
    · rfl
    · exact h.symm
  rw [hall o, hall o']

theorem both_unseq {c1 c2 : Comp S V} (o : Order) (s : S) (r) (h : Comp.both o c1 c2 s r) :
    Comp.both .unseq c1 c2 s r := by
  cases o
  · exact h
  · exact .inl h
  · exact .inr h

/-- Evaluating before the call or inside, for the operators that always
evaluate both operands. -/
theorem prepare2_strict (M : Machine S V) (lazy1 lazy2 : Bool) (op : BOp)
    (hl : op.isLogical = false) (hc : op ≠ .comma) (c1 c2 : Comp S V) :
    prepare2 lazy1 lazy2 c1 c2 (fun a1 a2 => M.evalBin op a1 a2)
      = Comp.bind (Comp.both (callOrder lazy1 lazy2 (M.std.order op)) c1 c2)
          fun p => .lift (M.bin op p.1 p.2) := by
  have hc' : (op == BOp.comma) = false := by simpa using hc
  unfold Machine.evalBin
  simp only [hl, hc', Bool.false_eq_true, if_false]
  cases lazy1 <;> cases lazy2
  · simp only [prepare2, callOrder, both_pure, Comp.pure_bind]
  · simp only [prepare2, callOrder, both_pure_left, Comp.bind_assoc, Comp.pure_bind]
    simp only [Comp.both, Comp.bind_assoc, Comp.pure_bind]
  · simp only [prepare2, callOrder, both_pure_right, Comp.bind_assoc, Comp.pure_bind]
    simp only [Comp.both, Comp.bind_assoc, Comp.pure_bind]
  · simp only [prepare2, callOrder]

/-- The logical operators when the right operand is lazy. -/
theorem prepare2_logical (M : Machine S V) (lazy1 : Bool) (op : BOp)
    (hl : op.isLogical = true) (c1 c2 : Comp S V) :
    prepare2 lazy1 true c1 c2 (fun a1 a2 => M.evalBin op a1 a2) = M.evalBin op c1 c2 := by
  unfold Machine.evalBin
  simp only [hl, if_true]
  cases lazy1
  · simp only [prepare2, Machine.logical, Comp.pure_bind]
  · simp only [prepare2]

theorem prepare2_bind (lazy1 lazy2 : Bool) (c1 c2 : Comp S V)
    (k : Comp S V → Comp S V → Comp S α) (m : α → Comp S β) :
    prepare2 lazy1 lazy2 c1 c2 (fun a1 a2 => Comp.bind (k a1 a2) m)
      = Comp.bind (prepare2 lazy1 lazy2 c1 c2 k) m := by
  cases lazy1 <;> cases lazy2 <;> simp only [prepare2, Comp.bind_assoc]

theorem prepare1_bind (lazy : Bool) (c : Comp S V) (k : Comp S V → Comp S α) (m : α → Comp S β) :
    prepare1 lazy c (fun a => Comp.bind (k a) m) = Comp.bind (prepare1 lazy c k) m := by
  cases lazy <;> simp [prepare1, Comp.bind_assoc]

theorem prepare1_evalUn (M : Machine S V) (lazy : Bool) (op : UOp) (c : Comp S V) :
    prepare1 lazy c (fun a => M.evalUn op a) = M.evalUn op c := by
  cases lazy
  · unfold Machine.evalUn prepare1
    by_cases h : op = UOp.lnot <;> simp [h]
  · rfl

theorem prepare1_id (lazy : Bool) (c : Comp S V) : prepare1 lazy c (fun a => a) = c := by
  cases lazy <;> simp [prepare1]

/-- An idle computation whose value is not used can be dropped. -/
theorem idle_bind {c : Comp S V} (h : c.Idle) (d : Comp S α) : Comp.bind c (fun _ => d) = d := by
  refine Comp.ext fun s r => ⟨?_, fun hr => ?_⟩
  · rintro ⟨r1, h1, h2⟩
    obtain ⟨v, rfl⟩ := (h s).2 _ h1
    exact h2
  · obtain ⟨v, hv⟩ := (h s).1
    exact ⟨_, hv, hr⟩

theorem or_self (c : Comp S α) : Comp.or c c = c := Comp.ext fun s r => by simp [Comp.or]

theorem prepare2_lhs (lazy1 lazy2 : Bool) (c1 c2 : Comp S V) (h : lazy2 = true ∨ c2.Idle) :
    prepare2 lazy1 lazy2 c1 c2 (fun a1 _ => a1) = c1 := by
  cases lazy2
  · have hi : c2.Idle := by simpa using h
    cases lazy1
    · simp only [prepare2, Comp.both, Comp.or_bind, Comp.bind_assoc, Comp.pure_bind, idle_bind hi, Comp.bind_pure,
        or_self]
    · exact idle_bind hi _
  · cases lazy1
    · simp [prepare2]
    · rfl

theorem prepare2_rhs (lazy1 lazy2 : Bool) (c1 c2 : Comp S V) (h : lazy1 = true ∨ c1.Idle) :
    prepare2 lazy1 lazy2 c1 c2 (fun _ a2 => a2) = c2 := by
  cases lazy1
  · have hi : c1.Idle := by simpa using h
    cases lazy2
    · simp only [prepare2, Comp.both, Comp.or_bind, Comp.bind_assoc, Comp.pure_bind, idle_bind hi, Comp.bind_pure,
        or_self]
    · exact idle_bind hi _
  · cases lazy2
    · simp [prepare2]
    · rfl

/-- A logical operator whose right operand is evaluated beforehand. -/
theorem prepare2_logical_eager (M : Machine S V) (lazy1 : Bool) (op : BOp)
    (hl : op.isLogical = true) (c1 c2 : Comp S V) (hi : c2.Idle) (hc : c1.Commute c2) :
    prepare2 lazy1 false c1 c2 (fun a1 a2 => M.evalBin op a1 a2) = M.evalBin op c1 c2 := by
  have key : Comp.bind (Comp.both .lhsFirst c1 c2)
      (fun p => M.logical op (.pure p.1) (.pure p.2)) = M.logical op c1 c2 := by
    simp only [Comp.both, Machine.logical, Comp.bind_assoc, Comp.pure_bind]
    congr 1
    funext v1
    cases M.truth v1 with
    | none =>
      have : ∀ k : Bool → Comp S V,
          Comp.bind (Comp.ofOption (none : Option Bool) : Comp S Bool) k = Comp.ub := by
        intro k
        refine Comp.ext fun s r => ?_
        simp [Comp.bind, Comp.ofOption, next, Comp.ub]
      simp only [this]
      exact idle_bind hi _
    | some b1 =>
      simp only [Comp.ofOption, Comp.pure_bind]
      split
      · exact idle_bind hi _
      · rfl
  unfold Machine.evalBin
  simp only [hl, if_true]
  cases lazy1
  · simp only [prepare2]
    rw [both_commute hc .unseq .lhsFirst]
    exact key
  · rw [← key, both_commute hc .lhsFirst .rhsFirst]
    simp only [prepare2, Comp.both, Comp.bind_assoc, Comp.pure_bind, Machine.logical]

end Dredd
