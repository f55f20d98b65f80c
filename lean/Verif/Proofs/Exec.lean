/-
Executing the lines of mutator functions.  Helper lemmas.
-/
import Verif.Sem.Sim
import Verif.Spec.Action
import Verif.Proofs.Clauses
import Verif.Proofs.Run

namespace Dredd

variable {S V D α : Type} {Ok : D → Prop} {b : Prop}

/-- First enabled clause. -/
def pickFrom (en : Nat → Bool) : Nat → List (RetE × α) → Option (RetE × α)
  | _, [] => none
  | k, c :: cs => if en k then some c else pickFrom en (k + 1) cs

/-- The expression returned: that of the first enabled clause, or `q`. -/
def picked (en : Nat → Bool) (k : Nat) (cs : List (RetE × α)) (q : RetE) : RetE :=
  ((pickFrom en k cs).map (·.1)).getD q

theorem runLines_guards {M : Machine S V} {dev : Device D} {en : Nat → Bool} {n : Nat}
    (hd : dev.Faithful Ok en n) (ty : Text) {a : Arg → Comp S V} {a' : Arg → Comp (S × D) V}
    (ha : ∀ x, Sim Ok b (a x) (a' x)) (id : Nat) (q : RetE) (cs : List (RetE × α)) (k : Nat)
    (hn : id + k + cs.length ≤ n) :
    Sim Ok b ((picked en (id + k) cs q).run M ty a)
      (runLines M dev ty a' id (guardsFrom k cs ++ [.ret q])) := by
  induction cs generalizing k with
  | nil => exact .retRun ty q ha
  | cons c cs ih =>
    simp only [guardsFrom, List.cons_append, runLines]
    have hq : ∀ d, Ok d → ∃ d', dev.query (id + k) d = some (en (id + k), d') ∧ Ok d' :=
      fun d h => hd.query d _ h (by simp at hn; omega)
    refine Sim.device hq ?_
    unfold picked pickFrom
    by_cases he : en (id + k) = true
    · simp only [he, if_true, Option.map_some, Option.getD_some]
      exact .retRun ty c.1 ha
    · simp only [he]
      exact ih (k + 1) (by simp at hn; omega)

theorem pickFrom_none_of {en : Nat → Bool} (k : Nat) (cs : List (RetE × α))
    (h : ∀ i, k ≤ i → i < k + cs.length → en i = false) : pickFrom en k cs = none := by
  induction cs generalizing k with
  | nil => rfl
  | cons c cs ih =>
    simp only [pickFrom, h k (Nat.le_refl k) (by simp), Bool.false_eq_true, if_false]
    exact ih (k + 1) fun i h1 h2 => h i (by omega) (by simp; omega)

theorem runLines_quick {M : Machine S V} {dev : Device D} {en : Nat → Bool} {n : Nat}
    (hd : dev.Faithful Ok en n) (ty : Text) {a : Arg → Comp S V} {a' : Arg → Comp (S × D) V}
    (ha : ∀ x, Sim Ok b (a x) (a' x)) (id : Nat) (q : RetE) (ls : List Line) (c : Comp S V)
    (hno : (∀ i, i < n → en i = false) → c = q.run M ty a)
    (h : Sim Ok b c (runLines M dev ty a' id ls)) :
    Sim Ok b c (runLines M dev ty a' id (.quick q :: ls)) := by
  constructor
  · intro s d hok r' hr'
    simp only [runLines] at hr'
    split at hr'
    · exact h.fwd s d hok r' hr'
    · rename_i hs
      rw [hno (hd.some_ d hok (by simpa using hs))]
      exact (Sim.retRun (b := b) ty q ha).fwd s d hok r' hr'
  · intro hb s d hok r hr
    simp only [runLines]
    split
    · exact h.bwd hb s d hok r hr
    · rename_i hs
      rw [hno (hd.some_ d hok (by simpa using hs))] at hr
      exact (Sim.retRun ty q ha).bwd hb s d hok r hr

/-- The lines of a mutating build. -/
theorem runLines_mutating {M : Machine S V} {dev : Device D} {en : Nat → Bool} {n : Nat}
    (hd : dev.Faithful Ok en n) (ty : Text) {a : Arg → Comp S V} {a' : Arg → Comp (S × D) V}
    (ha : ∀ x, Sim Ok b (a x) (a' x)) (id : Nat) (q : RetE) (cs : List (RetE × α))
    (hn : id + cs.length ≤ n) :
    Sim Ok b ((picked en id cs q).run M ty a)
      (runLines M dev ty a' id (.quick q :: (guardsFrom 0 cs ++ [.ret q]))) := by
  refine runLines_quick hd ty ha id q _ _ ?_ ?_
  · intro hno
    rw [picked, pickFrom_none_of id cs fun i _ h2 => hno i (by omega)]
    rfl
  · exact runLines_guards hd ty ha id q cs 0 (by omega)

/-- The lines of a tracking build. -/
theorem runLines_tracking {M : Machine S V} {dev : Device D} {n : Nat}
    (hd : dev.Records Ok n) (ty : Text) {a : Arg → Comp S V} {a' : Arg → Comp (S × D) V}
    (ha : ∀ x, Sim Ok b (a x) (a' x)) (id : Nat) (q : RetE) (k : Nat) (hi : id < n) (hn : id + k ≤ n) :
    Sim Ok b (q.run M ty a) (runLines M dev ty a' id [.record k, .ret q]) := by
  simp only [runLines]
  exact Sim.device (fun d h => hd d id k h hi hn) (.retRun ty q ha)

/-- The first enabled clause is the one with the smallest enabled id. -/
theorem pickFrom_smallest {E : Nat → Bool} (first k : Nat) (cs : List (RetE × α)) (x : α)
    (h : Smallest E (instsFrom (first + k) cs) x) :
    ∃ e, pickFrom (fun i => E (first + i)) k cs = some (e, x) ∧ (e, x) ∈ cs := by
  induction cs generalizing k with
  | nil => obtain ⟨i, h, _⟩ := h; simp [instsFrom] at h
  | cons c cs ih =>
    obtain ⟨i, hi, hE, hmin⟩ := h
    simp only [pickFrom]
    by_cases hk : E (first + k) = true
    · simp only [hk, if_true]
      have h1 := hmin (first + k) c.2 (by simp [instsFrom]) hk
      simp only [instsFrom, List.mem_cons, Prod.mk.injEq] at hi
      rcases hi with ⟨h2, h3⟩ | hi
      · subst h3
        exact ⟨c.1, rfl, by simp⟩
      · have : i ∈ (instsFrom (first + k + 1) cs).map (·.1) := List.mem_map.2 ⟨_, hi, rfl⟩
        rw [instsFrom_ids, List.mem_range'_1] at this
        omega
    · simp only [hk]
      simp only [instsFrom, List.mem_cons, Prod.mk.injEq] at hi
      rcases hi with ⟨h2, h3⟩ | hi
      · rw [h2] at hE
        exact absurd hE hk
      · obtain ⟨e, h1, h2⟩ := ih (k + 1) ⟨i, hi, hE, fun j a' hj hEj =>
          hmin j a' (by simp only [instsFrom, List.mem_cons]; exact .inr hj) hEj⟩
        exact ⟨e, by simpa using h1, by simp [h2]⟩

theorem pickFrom_noneEnabled {E : Nat → Bool} (first k : Nat) (cs : List (RetE × α))
    (h : NoneEnabled E (instsFrom (first + k) cs)) :
    pickFrom (fun i => E (first + i)) k cs = none := by
  induction cs generalizing k with
  | nil => rfl
  | cons c cs ih =>
    simp only [pickFrom]
    have hk := h (first + k) c.2 (by simp [instsFrom])
    simp only [hk, Bool.false_eq_true, if_false]
    exact ih (k + 1) fun i a hi => h i a (by simp only [instsFrom, List.mem_cons]; exact .inr hi)

end Dredd
