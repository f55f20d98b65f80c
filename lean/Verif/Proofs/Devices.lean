/-
The preludes do what the generated functions rely on.
-/
import Verif.Sem.Devices
import Verif.Spec.Action
import Verif.Proofs.Prelude
import Verif.Model.Tracking

namespace Dredd

/-- The ids in a list of integers. -/
def inList (vs : List Int) (i : Nat) : Bool := decide ((i : Int) ∈ vs)

/-- Invariant of the variables of a mutating prelude. -/
def PreludeOk (first n : Nat) (vs : List Int) (th : Thread) : Prop :=
  th = Thread.start n ∨ Decided first n vs th

theorem mutatingPrelude_faithful (cpp : Bool) (first n : Nat) (env : Option Text) (vs : List Int)
    (h : EnvLists env vs) (ho : ∀ v ∈ vs, -2147483648 ≤ v - (first : Int)) :
    (mutatingPrelude cpp first n env).Faithful (PreludeOk first n vs)
      (fun i => inList vs (first + i)) n where
  query := by
    rintro d i (rfl | hd) hi
    · obtain ⟨th, h1, h2⟩ := query_start cpp first n env vs h ho i hi
      exact ⟨th, by simp [mutatingPrelude, h1, inList], .inr h2⟩
    · refine ⟨d, ?_, .inr hd⟩
      simp [mutatingPrelude, query_decided cpp first n env vs d hd i hi, inList]
  some_ := by
    rintro d (rfl | hd) hs i hi
    · simp [mutatingPrelude, Thread.start] at hs
    · have : ¬ d.some_ = true := by simpa [mutatingPrelude] using hs
      rw [hd.flag] at this
      simp only [inList, decide_eq_false_iff_not]
      intro hm
      exact this ⟨_, hm, by omega, by omega⟩

theorem trackingPrelude_records (cpp : Bool) (first size : Nat) (envSet canOpen : Bool)
    (h : cpp = true ∨ envSet = false ∨ canOpen = true) :
    (trackingPrelude cpp first size envSet canOpen).Records (fun _ => True) size := by
  intro d i k _ hi hk
  simp only [trackingPrelude]
  rw [if_neg (by omega)]
  cases d.flags i <;> cases envSet <;> cases canOpen <;> cases cpp <;> simp_all

/-- The recorder of `Sem/Devices.lean` is the one of `Model/Tracking.lean` when
a single thread runs: the calls of a thread that nobody interrupts have the
effect of the corresponding `record` steps, one after the other. -/
theorem trackingPrelude_step (c : TrackCfg) (s : TrackState) (call : RecCall) (rest : List RecCall)
    (hs : s.threads 0 = ⟨call :: rest, none⟩) :
    match (trackingPrelude c.cpp (c.first call.file) (c.size call.file) c.envSet c.canOpen).record
        call.k call.m ⟨s.flags call.file, s.log⟩ with
    | none => s.step c 0 = none
    | some (_, d) => ∃ steps s', s.run c (0 :: List.replicate steps 0) = some s' ∧
        s'.threads 0 = ⟨rest, none⟩ ∧ s'.flags call.file = d.flags ∧ s'.log = d.log := by
  have key : ∀ (m x : Nat) (s : TrackState), s.threads 0 = ⟨rest, if m = 0 then none else some (x, m)⟩ →
      ∃ s', s.run c (List.replicate m 0) = some s' ∧ s'.threads 0 = ⟨rest, none⟩ ∧
        s'.flags = s.flags ∧ s'.log = s.log ++ List.range' x m := by
    intro m
    induction m with
    | zero => intro x s h; exact ⟨s, rfl, by simpa using h, rfl, by simp⟩
    | succ m ih =>
      intro x s h
      have h' : s.threads 0 = ⟨rest, some (x, m + 1)⟩ := by simpa using h
      have e : s.step c 0 = some { (s.setThread 0
          ⟨rest, if m = 0 then none else some (x + 1, m)⟩) with log := s.log ++ [x] } := by
        simp only [TrackState.step, h']
      obtain ⟨s', h1, h2, h3, h4⟩ := ih (x + 1) { (s.setThread 0
          ⟨rest, if m = 0 then none else some (x + 1, m)⟩) with log := s.log ++ [x] }
          (by simp [TrackState.setThread])
      refine ⟨s', ?_, h2, h3.trans rfl, ?_⟩
      · rw [List.replicate_succ, TrackState.run, e]
        exact h1
      · rw [h4, List.range'_succ]
        simp
  simp only [trackingPrelude]
  by_cases hk : c.size call.file ≤ call.k
  · simp [hk, TrackState.step, hs]
  · simp only [hk, if_false]
    by_cases hfl : s.flags call.file call.k = true
    · simp only [hfl, if_true]
      refine ⟨0, s.setThread 0 ⟨rest, none⟩, ?_, by simp [TrackState.setThread], rfl, rfl⟩
      simp [TrackState.run, TrackState.step, hs, hk, hfl]
    · have hfl' : s.flags call.file call.k = false := by simpa using hfl
      simp only [hfl', Bool.false_eq_true, if_false]
      cases henv : c.envSet
      · simp only [Bool.not_false, if_true]
        refine ⟨0, _, by simp [TrackState.run, TrackState.step, hs, hk, hfl', henv]; rfl, ?_, ?_, ?_⟩
        · simp [TrackState.setThread]
        · funext j; simp [TrackState.setThread]
        · simp [TrackState.setThread]
      · simp only [Bool.not_true, Bool.false_eq_true, if_false]
        cases hopen : c.canOpen
        · simp only [Bool.not_false, if_true]
          cases hcpp : c.cpp
          · simp [TrackState.step, hs, hk, hfl', henv, hopen, hcpp]
          · simp only [if_true]
            refine ⟨0, _, by
              simp [TrackState.run, TrackState.step, hs, hk, hfl', henv, hopen, hcpp]; rfl, ?_, ?_, ?_⟩
            · simp [TrackState.setThread]
            · funext j; simp [TrackState.setThread]
            · simp [TrackState.setThread]
        · simp only [Bool.not_true, Bool.false_eq_true, if_false]
          let s1 : TrackState := { s with
            flags := fun f k => if f = call.file ∧ k = call.k then true else s.flags f k }
          let s2 := s1.setThread 0
            ⟨rest, if call.m = 0 then none else some (c.first call.file + call.k, call.m)⟩
          obtain ⟨s', h1, h2, h3, h4⟩ := key call.m (c.first call.file + call.k) s2
            (by simp [s2, TrackState.setThread])
          refine ⟨call.m, s', ?_, h2, ?_, ?_⟩
          · have : s.step c 0 = some s2 := by
              simp [TrackState.step, hs, hk, hfl', henv, hopen, s2, s1]
            rw [TrackState.run, this]
            exact h1
          · rw [h3]; funext j; simp [s2, s1, TrackState.setThread]
          · rw [h4]; simp [s2, s1, TrackState.setThread]

end Dredd
