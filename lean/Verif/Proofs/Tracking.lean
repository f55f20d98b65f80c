/-
Invariant of the tracking prelude.
-/
import Verif.Spec.Track

namespace Dredd

/-- Id `x` is still to be written by thread `t`. -/
def TrackState.pending (s : TrackState) (t x : Nat) : Prop :=
  ∃ y r, (s.threads t).writing = some (y, r) ∧ y ≤ x ∧ x < y + r

/-- The invariant. -/
structure TrackInv (c : TrackCfg) (calls : Nat → List RecCall) (s : TrackState) : Prop where
  pre : ∀ t, ∃ done, calls t = done ++ (s.threads t).todo ∧
    ∀ a ∈ done, s.flags a.file a.k = true
  claimed : ∀ f k, s.flags f k = true → ∃ t a, a.file = f ∧ a.k = k ∧ s.Reached calls t a
  nodup : s.log.Nodup
  sep : ∀ x t, x ∈ s.log → ¬ s.pending t x
  one : ∀ x t u, s.pending t x → s.pending u x → t = u
  all : ∀ x, (x ∈ s.log ∨ ∃ t, s.pending t x) ↔
    ∃ t, ∃ a ∈ calls t, s.flags a.file a.k = true ∧ a.covers c x

theorem trackInv_start (c : TrackCfg) (calls : Nat → List RecCall) :
    TrackInv c calls (TrackState.start calls) := by
  refine ⟨fun t => ⟨[], rfl, by simp⟩, ?_, ?_, ?_, ?_, ?_⟩ <;>
    simp [TrackState.start, TrackState.pending]

theorem setThread_same (s : TrackState) (t th) : (s.setThread t th).threads t = th := by
  simp [TrackState.setThread]

theorem setThread_other (s : TrackState) (t th u) (h : u ≠ t) :
    (s.setThread t th).threads u = s.threads u := by
  simp [TrackState.setThread, h]

theorem reached_mono (calls : Nat → List RecCall) (s s' : TrackState) (t : Nat)
    (h : ∀ u, u ≠ t → (s'.threads u).todo = (s.threads u).todo)
    (ht : ∃ pre, (s.threads t).todo = pre ++ (s'.threads t).todo) (u : Nat) (a : RecCall)
    (hr : s.Reached calls u a) : s'.Reached calls u a := by
  obtain ⟨done, h1, h2⟩ := hr
  by_cases hut : u = t
  · subst hut
    obtain ⟨pre, hp⟩ := ht
    exact ⟨done ++ pre, by rw [h1, hp]; simp, by simp [h2]⟩
  · exact ⟨done, by rw [h1, h u hut], h2⟩

theorem trackInv_step (c : TrackCfg) (henv : c.envSet = true) (hopen : c.canOpen = true)
    (calls : Nat → List RecCall)
    (hb : Blocks c fun a => ∃ t, a ∈ calls t)
    (s s' : TrackState) (t : Nat) (h : TrackInv c calls s) (hs : s.step c t = some s') :
    TrackInv c calls s' := by
  unfold TrackState.step at hs
  split at hs
  · -- write a line
    rename_i x r hw
    simp only [Option.some.injEq] at hs
    subst hs
    have hpx : s.pending t x := ⟨x, r + 1, hw, by omega, by omega⟩
    have hpend : ∀ u y, TrackState.pending
        { (s.setThread t ⟨(s.threads t).todo, if r = 0 then none else some (x + 1, r)⟩) with
          log := s.log ++ [x] } u y ↔ s.pending u y ∧ ¬ (u = t ∧ y = x) := by
      intro u y
      by_cases hut : u = t
      · subst hut
        simp only [TrackState.pending, setThread_same, hw]
        by_cases hr : r = 0
        · subst hr
          simp only [if_true, reduceCtorEq, false_and, exists_false, true_and, false_iff]
          rintro ⟨⟨y', r', h1, h2, h3⟩, hne⟩
          simp only [Option.some.injEq, Prod.mk.injEq] at h1
          omega
        · simp only [hr, if_false]
          constructor
          · rintro ⟨y', r', h1, h2, h3⟩
            simp only [Option.some.injEq, Prod.mk.injEq] at h1
            refine ⟨⟨x, r + 1, rfl, by omega, by omega⟩, ?_⟩
            rintro ⟨_, rfl⟩
            omega
          · rintro ⟨⟨y', r', h1, h2, h3⟩, hne⟩
            simp only [Option.some.injEq, Prod.mk.injEq] at h1
            have : y ≠ x := fun h => hne ⟨trivial, h⟩
            exact ⟨x + 1, r, rfl, by omega, by omega⟩
      · simp only [TrackState.pending, setThread_other _ _ _ _ hut, hut, false_and,
          not_false_eq_true, and_true]
    refine ⟨?_, ?_, ?_, ?_, ?_, ?_⟩
    rotate_left
    · intro f k hfk
      obtain ⟨u, a, h1, h2, h3⟩ := h.claimed f k hfk
      refine ⟨u, a, h1, h2, reached_mono calls s _ t ?_ ⟨[], ?_⟩ u a h3⟩
      · intro v hv; simp only [setThread_other _ _ _ _ hv]
      · simp only [setThread_same, List.nil_append]
    rotate_right
    · intro u
      by_cases hut : u = t
      · subst hut
        simp only [setThread_same]
        exact h.pre u
      · simp only [setThread_other _ _ _ _ hut]
        exact h.pre u
    · simp only [List.nodup_append]
      refine ⟨h.nodup, by simp, ?_⟩
      intro a ha b hb'
      simp only [List.mem_singleton] at hb'
      subst hb'
      rintro rfl
      exact h.sep a t ha hpx
    · intro y u hy
      simp only [List.mem_append, List.mem_singleton] at hy
      rw [hpend]
      rintro ⟨hp, hne⟩
      rcases hy with hy | rfl
      · exact h.sep y u hy hp
      · exact hne ⟨h.one y u t hp hpx, rfl⟩
    · intro y u v hu hv
      rw [hpend] at hu hv
      exact h.one y u v hu.1 hv.1
    · intro y
      show (y ∈ s.log ++ [x] ∨ _) ↔ _
      simp only [hpend, List.mem_append, List.mem_singleton]
      have hall := h.all y
      show _ ↔ ∃ t, ∃ a ∈ calls t, s.flags a.file a.k = true ∧ a.covers c y
      rw [← hall]
      constructor
      · rintro ((h1 | rfl) | ⟨u, h1, _⟩)
        · exact Or.inl h1
        · exact Or.inr ⟨t, hpx⟩
        · exact Or.inr ⟨u, h1⟩
      · rintro (h1 | ⟨u, h1⟩)
        · exact Or.inl (Or.inl h1)
        · by_cases hy : u = t ∧ y = x
          · exact Or.inl (Or.inr hy.2)
          · exact Or.inr ⟨u, h1, hy⟩
  · -- nothing left to write
    rename_i x hw
    simp only [Option.some.injEq] at hs
    subst hs
    have hpend : ∀ u y, (s.setThread t ⟨(s.threads t).todo, none⟩).pending u y ↔ s.pending u y := by
      intro u y
      by_cases hut : u = t
      · subst hut
        simp only [TrackState.pending, setThread_same, hw]
        constructor
        · rintro ⟨_, _, h, _⟩; simp at h
        · rintro ⟨_, _, h, _, _⟩
          simp only [Option.some.injEq, Prod.mk.injEq] at h
          omega
      · simp only [TrackState.pending, setThread_other _ _ _ _ hut]
    refine ⟨?_, ?_, h.nodup, ?_, ?_, ?_⟩
    rotate_left
    · intro f k hfk
      obtain ⟨u, a, h1, h2, h3⟩ := h.claimed f k hfk
      refine ⟨u, a, h1, h2, reached_mono calls s _ t ?_ ⟨[], ?_⟩ u a h3⟩
      · intro v hv; simp only [setThread_other _ _ _ _ hv]
      · simp only [setThread_same, List.nil_append]
    rotate_right
    · intro u
      by_cases hut : u = t
      · subst hut
        simp only [setThread_same]
        exact h.pre u
      · simp only [setThread_other _ _ _ _ hut]
        exact h.pre u
    · intro y u hy; rw [hpend]; exact h.sep y u hy
    · intro y u v; rw [hpend, hpend]; exact h.one y u v
    · intro y; simp only [hpend]; exact h.all y
  · rename_i hw
    split at hs
    · simp only [Option.some.injEq] at hs
      subst hs; exact h
    · rename_i call rest htodo
      have hmem : call ∈ calls t := by
        obtain ⟨done, h1, _⟩ := h.pre t
        rw [h1, htodo]; simp
      have hnp : ∀ y, ¬ s.pending t y := by
        rintro y ⟨_, _, h, _⟩; rw [hw] at h; simp at h
      split at hs
      · simp at hs
      · split at hs
        · -- already recorded
          rename_i hflag
          simp only [Option.some.injEq] at hs
          subst hs
          have hpend : ∀ u y, (s.setThread t ⟨rest, none⟩).pending u y ↔ s.pending u y := by
            intro u y
            by_cases hut : u = t
            · subst hut
              simp only [TrackState.pending, setThread_same, hw]
            · simp only [TrackState.pending, setThread_other _ _ _ _ hut]
          refine ⟨?_, ?_, h.nodup, ?_, ?_, ?_⟩
          rotate_left
          · intro f k hfk
            obtain ⟨u, a, h1, h2, h3⟩ := h.claimed f k hfk
            refine ⟨u, a, h1, h2, reached_mono calls s _ t ?_ ⟨[call], ?_⟩ u a h3⟩
            · intro v hv; simp only [setThread_other _ _ _ _ hv]
            · simp only [setThread_same, htodo, List.singleton_append]
          rotate_right
          · intro u
            by_cases hut : u = t
            · subst hut
              simp only [setThread_same]
              obtain ⟨done, h1, h2⟩ := h.pre u
              refine ⟨done ++ [call], by rw [h1, htodo]; simp, ?_⟩
              intro a ha
              simp only [List.mem_append, List.mem_singleton] at ha
              rcases ha with ha | rfl
              · exact h2 a ha
              · exact hflag
            · simp only [setThread_other _ _ _ _ hut]
              exact h.pre u
          · intro y u hy; rw [hpend]; exact h.sep y u hy
          · intro y u v; rw [hpend, hpend]; exact h.one y u v
          · intro y; simp only [hpend]; exact h.all y
        · rename_i hflag
          simp only [henv, hopen, Bool.not_true, Bool.false_eq_true, if_false,
            Option.some.injEq] at hs
          have hm : call.m ≠ 0 := by have := hb.pos call ⟨t, hmem⟩; omega
          simp only [hm, if_false] at hs
          subst hs
          -- the ids of this call are new
          have hnew : ∀ y, call.covers c y → y ∉ s.log ∧ ∀ u, ¬ s.pending u y := by
            intro y hy
            have : ¬ ∃ t, ∃ a ∈ calls t, s.flags a.file a.k = true ∧ a.covers c y := by
              rintro ⟨u, a, ha, hf, hc⟩
              rcases hb.disj a call ⟨u, ha⟩ ⟨t, hmem⟩ with rfl | hd
              · exact hflag hf
              · exact hd y ⟨hc, hy⟩
            rw [← h.all y] at this
            exact ⟨fun h => this (Or.inl h), fun u h => this (Or.inr ⟨u, h⟩)⟩
          generalize hfl : (fun f k => if f = call.file ∧ k = call.k then true else s.flags f k)
            = fl
          have hfl' : ∀ f k, fl f k = true ↔ (f = call.file ∧ k = call.k) ∨ s.flags f k = true := by
            intro f k
            rw [← hfl]
            by_cases hfk : f = call.file ∧ k = call.k
            · simp [hfk]
            · simp [hfk]
          have hpend : ∀ u y, (({ s with flags := fl } : TrackState).setThread t
              ⟨rest, some (c.first call.file + call.k, call.m)⟩).pending u y
              ↔ s.pending u y ∨ (u = t ∧ call.covers c y) := by
            intro u y
            by_cases hut : u = t
            · subst hut
              simp only [hnp, false_or, true_and]
              simp only [TrackState.pending, setThread_same, RecCall.covers]
              constructor
              · rintro ⟨a, b, h1, h2, h3⟩
                simp only [Option.some.injEq, Prod.mk.injEq] at h1
                omega
              · intro h
                exact ⟨_, _, rfl, h.1, h.2⟩
            · simp only [TrackState.pending, setThread_other _ _ _ _ hut, hut, false_and, or_false]
          refine ⟨?_, ?_, h.nodup, ?_, ?_, ?_⟩
          · intro u
            by_cases hut : u = t
            · subst hut
              simp only [setThread_same]
              obtain ⟨done, h1, h2⟩ := h.pre u
              refine ⟨done ++ [call], by rw [h1, htodo]; simp, ?_⟩
              intro a ha
              simp only [List.mem_append, List.mem_singleton] at ha
              show fl _ _ = true
              rw [hfl']
              rcases ha with ha | rfl
              · exact Or.inr (h2 a ha)
              · exact Or.inl ⟨rfl, rfl⟩
            · simp only [setThread_other _ _ _ _ hut]
              obtain ⟨done, h1, h2⟩ := h.pre u
              refine ⟨done, h1, fun a ha => ?_⟩
              show fl _ _ = true
              rw [hfl']
              exact Or.inr (h2 a ha)
          · intro f k hfk
            have hfk : fl f k = true := hfk
            rw [hfl'] at hfk
            rcases hfk with ⟨rfl, rfl⟩ | hfk
            · refine ⟨t, call, rfl, rfl, ?_⟩
              obtain ⟨done, h1, _⟩ := h.pre t
              exact ⟨done ++ [call], by rw [h1, htodo, setThread_same]; simp, by simp⟩
            · obtain ⟨u, a, h1, h2, h3⟩ := h.claimed f k hfk
              refine ⟨u, a, h1, h2, reached_mono calls s _ t ?_ ⟨[call], ?_⟩ u a h3⟩
              · intro v hv; simp only [setThread_other _ _ _ _ hv]
              · simp only [setThread_same, htodo, List.singleton_append]
          · intro y u hy
            rw [hpend]
            rintro (hp | ⟨_, hc⟩)
            · exact h.sep y u hy hp
            · exact (hnew y hc).1 hy
          · intro y u v
            rw [hpend, hpend]
            rintro (hu | ⟨rfl, hu⟩) (hv | ⟨rfl, hv⟩)
            · exact h.one y u v hu hv
            · exact absurd hu ((hnew y hv).2 u)
            · exact absurd hv ((hnew y hu).2 v)
            · rfl
          · intro y
            have hall := h.all y
            simp only [hpend]
            show (y ∈ s.log ∨ _) ↔ ∃ t, ∃ a ∈ calls t, fl a.file a.k = true ∧ a.covers c y
            constructor
            · rintro (h1 | ⟨u, h1 | ⟨rfl, hc⟩⟩)
              · obtain ⟨u, a, ha, hf, hc⟩ := hall.mp (Or.inl h1)
                exact ⟨u, a, ha, (hfl' _ _).mpr (Or.inr hf), hc⟩
              · obtain ⟨u, a, ha, hf, hc⟩ := hall.mp (Or.inr ⟨u, h1⟩)
                exact ⟨u, a, ha, (hfl' _ _).mpr (Or.inr hf), hc⟩
              · exact ⟨u, call, hmem, (hfl' _ _).mpr (Or.inl ⟨rfl, rfl⟩), hc⟩
            · rintro ⟨u, a, ha, hf, hc⟩
              rw [hfl'] at hf
              rcases hf with ⟨h1, h2⟩ | hf
              · refine Or.inr ⟨t, Or.inr ⟨rfl, ?_⟩⟩
                rcases hb.disj a call ⟨u, ha⟩ ⟨t, hmem⟩ with rfl | hd
                · exact hc
                · exfalso
                  have hp1 := hb.pos a ⟨u, ha⟩
                  have hp2 := hb.pos call ⟨t, hmem⟩
                  apply hd (c.first call.file + call.k)
                  simp only [RecCall.covers, h1, h2]
                  omega
              · rcases hall.mpr ⟨u, a, ha, hf, hc⟩ with h1 | ⟨v, h1⟩
                · exact Or.inl h1
                · exact Or.inr ⟨v, Or.inl h1⟩

theorem trackInv_run (c : TrackCfg) (henv : c.envSet = true) (hopen : c.canOpen = true)
    (calls : Nat → List RecCall) (hb : Blocks c fun a => ∃ t, a ∈ calls t)
    (ts : List Nat) (s s' : TrackState) (h : TrackInv c calls s)
    (hr : TrackState.run c s ts = some s') : TrackInv c calls s' := by
  induction ts generalizing s with
  | nil => simp only [TrackState.run, Option.some.injEq] at hr; subst hr; exact h
  | cons t ts ih =>
    simp only [TrackState.run, Option.bind_eq_some_iff] at hr
    obtain ⟨s1, h1, h2⟩ := hr
    exact ih s1 (trackInv_step c henv hopen calls hb s s1 t h h1) h2

end Dredd
