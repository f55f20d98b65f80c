/-
C09, C10: exactly the mutants named in DREDD_ENABLED_MUTATION are enabled, in
C++ (`cpp = true`) and in C (`cpp = false`).
-/
import Verif.Proofs.Prelude
import Verif.Proofs.Decimal

namespace Dredd

/-- C++: the first query of a thread about any local id `i` answers whether
`first + i` is in the list, without leaving the array; the thread's later
queries, whatever the environment has become, answer from the same list.

Full statement: the same without the last hypothesis; it is false
(`C09_overflow`), because `value - first` can overflow. -/
theorem C09_enabled_partial (first n : Nat) (env : Option Text) (vs : List Int)
    (h : EnvLists env vs) (ho : ∀ v ∈ vs, -2147483648 ≤ v - first) (i : Nat) (hi : i < n) :
    ∃ th, enabledMutation true first n env (Thread.start n) i
        = .ok (th, decide ((first + i : Int) ∈ vs)) ∧
      ∀ env' j, j < n →
        enabledMutation true first n env' th j = .ok (th, decide ((first + j : Int) ∈ vs)) := by
  obtain ⟨th, h1, h2⟩ := query_start true first n env vs h ho i hi
  exact ⟨th, h1, fun env' j hj => query_decided true first n env' vs th h2 j hj⟩

/-- The same for C. -/
theorem C10_enabled_partial (first n : Nat) (env : Option Text) (vs : List Int)
    (h : EnvLists env vs) (ho : ∀ v ∈ vs, -2147483648 ≤ v - first) (i : Nat) (hi : i < n) :
    ∃ th, enabledMutation false first n env (Thread.start n) i
        = .ok (th, decide ((first + i : Int) ∈ vs)) ∧
      ∀ env' j, j < n →
        enabledMutation false first n env' th j = .ok (th, decide ((first + j : Int) ∈ vs)) := by
  obtain ⟨th, h1, h2⟩ := query_start false first n env vs h ho i hi
  exact ⟨th, h1, fun env' j hj => query_decided false first n env' vs th h2 j hj⟩

theorem overflow_ub (cpp : Bool) (first n : Nat) (env : Option Text) (vs : List Int)
    (h : EnvLists env vs) (ho : ¬ ∀ v ∈ vs, -2147483648 ≤ v - (first : Int)) (i : Nat) :
    enabledMutation cpp first n env (Thread.start n) i = .ub := by
  have := initThread_eq cpp first n env vs h (Thread.start n)
  rw [enableAll_overflow first n vs _ (by simp [Thread.start])
    (fun v hv => (envLists_range env vs h v hv).2) ho] at this
  simp [enabledMutation, Thread.start] at this ⊢
  rw [this]

/-- The hypothesis of `C09_enabled_partial` is exact: for every other list of
integers the behaviour is undefined. -/
theorem C09_overflow (first n : Nat) (env : Option Text) (vs : List Int)
    (h : EnvLists env vs) (ho : ¬ ∀ v ∈ vs, -2147483648 ≤ v - (first : Int)) (i : Nat) :
    enabledMutation true first n env (Thread.start n) i = .ub :=
  overflow_ub true first n env vs h ho i

theorem C10_overflow (first n : Nat) (env : Option Text) (vs : List Int)
    (h : EnvLists env vs) (ho : ¬ ∀ v ∈ vs, -2147483648 ≤ v - (first : Int)) (i : Nat) :
    enabledMutation false first n env (Thread.start n) i = .ub :=
  overflow_ub false first n env vs h ho i

/-- Hence the full statement of C09 and C10 is false: `-2147483648` in the list
and a file that is not the first. -/
theorem C09_full_false (cpp : Bool) :
    ∃ first n env vs i, i < n ∧ EnvLists env vs ∧
      enabledMutation cpp first n env (Thread.start n) i = .ub := by
  refine ⟨1, 1, some t!"-2147483648", [-2147483648], 0, by decide, ?_, ?_⟩
  · refine Or.inr ⟨[t!"-2147483648"], by simp, rfl, ?_⟩
    refine .num ⟨[], t!"2147483648", by simp, by decide, ?_, Or.inr (Or.inr ⟨rfl, by decide⟩)⟩
      (by decide) (by decide) .nil
    decide
  · apply overflow_ub cpp 1 1 _ [-2147483648]
    · refine Or.inr ⟨[t!"-2147483648"], by simp, rfl, ?_⟩
      refine .num ⟨[], t!"2147483648", by simp, by decide, ?_, Or.inr (Or.inr ⟨rfl, by decide⟩)⟩
        (by decide) (by decide) .nil
      decide
    · simp

/-- The first file of a run, where ids start at 0, has no restriction. -/
theorem C09_first_file (cpp : Bool) (n : Nat) (env : Option Text) (vs : List Int)
    (h : EnvLists env vs) (i : Nat) (hi : i < n) :
    ∃ th, enabledMutation cpp 0 n env (Thread.start n) i = .ok (th, decide ((i : Int) ∈ vs)) := by
  obtain ⟨th, h1, _⟩ := query_start cpp 0 n env vs h
    (fun v hv => by have := (envLists_range env vs h v hv).1; simpa using this) i hi
  exact ⟨th, by simpa using h1⟩

/-- C49: listing mutant ids in decimal enables exactly these.  `ids` are any
numbers an `int` can hold, `first` any first id; empty entries may be
interspersed (`none`). -/
theorem C49_ids (cpp : Bool) (first n : Nat) (hf : first ≤ 2147483648)
    (ids : List (Option Nat)) (hids : ∀ k, some k ∈ ids → k ≤ 2147483647) (hne : ids ≠ [])
    (i : Nat) (hi : i < n) :
    ∃ th, enabledMutation cpp first n
        (some (joinComma (ids.map fun k => match k with | none => [] | some k => natDec k)))
        (Thread.start n) i
      = .ok (th, decide (some (first + i) ∈ ids)) := by
  have he : ∀ ids : List (Option Nat), (∀ k, some k ∈ ids → k ≤ 2147483647) →
      Entries (ids.map fun k => match k with | none => [] | some k => natDec k)
        ((ids.filterMap id).map Int.ofNat) := by
    intro ids
    induction ids with
    | nil => intro _; exact .nil
    | cons k ks ih =>
      intro hk
      have ih := ih fun k hk' => hk k (by simp [hk'])
      cases k with
      | none => exact .empty ih
      | some k =>
        have hk := hk k (by simp)
        simp only [List.map_cons, List.filterMap_cons_some (f := id) rfl]
        refine .num (natDec_numeral k) ?_ ?_ ih
        · show -2147483648 ≤ (k : Int); omega
        · show (k : Int) ≤ 2147483647; omega
  obtain ⟨th, h1, _⟩ := query_start cpp first n _ ((ids.filterMap id).map Int.ofNat)
    (Or.inr ⟨_, by simpa using hne, rfl, he ids hids⟩) (by
      intro v hv
      simp only [List.mem_map] at hv
      obtain ⟨k, _, rfl⟩ := hv
      show -2147483648 ≤ (k : Int) - first
      omega) i hi
  refine ⟨th, ?_⟩
  rw [h1]
  congr 2
  rw [decide_eq_decide]
  simp only [List.mem_map, List.mem_filterMap, id_eq, exists_eq_right]
  constructor
  · rintro ⟨a, ha, hai⟩
    have : a = first + i := by
      have : (a : Int) = first + i := hai
      omega
    exact this ▸ ha
  · intro h
    exact ⟨first + i, h, rfl⟩

/-- A non-trivial instance: mutants 3 and 70 of a file with ids 2..101, with
empty entries and an id of another file. -/
example : ∃ th, enabledMutation false 2 100 (some t!",3,,+70, 500,")
    (Thread.start 100) 68 = .ok (th, true) := by
  have := C10_enabled_partial 2 100 (some t!",3,,+70, 500,") [3, 70, 500]
    (Or.inr ⟨[[], t!"3", [], t!"+70", t!" 500", []], by simp, rfl,
      .empty (.num ⟨[], t!"3", by simp, by decide, by decide, Or.inl ⟨rfl, rfl⟩⟩ (by decide)
        (by decide) (.empty (.num ⟨[], t!"70", by simp, by decide, by decide,
          Or.inr (Or.inl ⟨rfl, rfl⟩)⟩ (by decide) (by decide)
          (.num ⟨t!" ", t!"500", by decide, by decide, by decide, Or.inl ⟨rfl, rfl⟩⟩ (by decide)
            (by decide) (.empty .nil)))))⟩)
    (by decide) 68 (by decide)
  obtain ⟨th, h, _⟩ := this
  exact ⟨th, h⟩

example : ∃ th, enabledMutation true 2 100 (some t!"3,,70") (Thread.start 100) 68
    = .ok (th, true) :=
  C49_ids true 2 100 (by decide) [some 3, none, some 70]
    (by intro k hk; simp at hk; omega) (by simp) 68 (by decide)

end Dredd
