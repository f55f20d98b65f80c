/-
Helper lemmas about the order of places.
-/
import Verif.Spec.Syntax

namespace Dredd

theorem cons_split {p q : List Nat} {i j : Nat} {r r' : List Nat} (h : p ++ i :: r = q ++ j :: r') :
    (p = q ∧ i = j ∧ r = r') ∨ (∃ t, q = p ++ i :: t) ∨ (∃ t, p = q ++ j :: t) := by
  induction p generalizing q with
  | nil =>
    cases q with
    | nil => simp at h; exact .inl ⟨rfl, h⟩
    | cons a q => simp at h; exact .inr (.inl ⟨q, by simp [h.1]⟩)
  | cons a p ih =>
    cases q with
    | nil => simp at h; exact .inr (.inr ⟨p, by simp [h.1]⟩)
    | cons b q =>
      simp at h
      obtain ⟨rfl, h⟩ := h
      rcases ih h with ⟨rfl, rfl, rfl⟩ | ⟨t, rfl⟩ | ⟨t, rfl⟩
      · exact .inl ⟨rfl, rfl, rfl⟩
      · exact .inr (.inl ⟨t, rfl⟩)
      · exact .inr (.inr ⟨t, rfl⟩)

/-- Places that differ at some step. -/
theorem diverge_unique {p q : List Nat} {i j i' j' : Nat} {r s r' s' : List Nat}
    (h1 : p ++ i :: r = q ++ i' :: r') (h2 : p ++ j :: s = q ++ j' :: s') (h : i ≠ j)
    (h' : i' ≠ j') : p = q ∧ i = i' ∧ j = j' := by
  rcases cons_split h1 with ⟨rfl, rfl, rfl⟩ | ⟨t, rfl⟩ | ⟨t, rfl⟩
  · simp at h2
    exact ⟨rfl, rfl, h2.1⟩
  · simp at h2
    exact absurd h2.1.symm h
  · simp at h2
    exact absurd h2.1 h'

theorem Before.asymm {a b : List Nat × Mutation} (h : Before a b) : ¬ Before b a := by
  intro h'
  rcases h with ⟨i, r, h⟩ | ⟨p, i, j, r, s, hij, ha, hb⟩ | ⟨h, hr⟩
  · rcases h' with ⟨i', r', h'⟩ | ⟨p, i', j', r', s', hij, hb, ha⟩ | ⟨h', _⟩
    · have := congrArg List.length h; have := congrArg List.length h'; simp at *; omega
    · rw [hb, ha] at h
      simp at h
      omega
    · have := congrArg List.length h; have := congrArg List.length h'; simp at *; omega
  · rcases h' with ⟨i', r', h'⟩ | ⟨p', i', j', r', s', hij', hb', ha'⟩ | ⟨h', _⟩
    · rw [hb, ha] at h'
      simp at h'
      omega
    · have := diverge_unique (ha.symm.trans ha') (hb.symm.trans hb') (by omega) (by omega)
      omega
    · rw [hb, ha] at h'
      simp at h'
      omega
  · rcases h' with ⟨i', r', h'⟩ | ⟨p', i', j', r', s', hij', hb', ha'⟩ | ⟨h', hr'⟩
    · have := congrArg List.length h; have := congrArg List.length h'; simp at *; omega
    · rw [hb', ha'] at h
      simp at h
      omega
    · omega

end Dredd
