/-
C12: the enabled set is decided once per thread and never changes.
-/
import Verif.Proofs.Prelude
import Verif.Model.PreludeThreads

namespace Dredd

/-- The value of the environment variable when thread `t` makes its first
query, if it makes one; `env` is the value before the events. -/
def envAtFirst (t : Nat) : Option Text → List Event → Option (Option Text)
  | _, [] => none
  | _, .setenv e :: es => envAtFirst t e es
  | env, .query u _ :: es => if u = t then some env else envAtFirst t env es

/-- All values the environment variable takes. -/
def envValues (env : Option Text) (es : List Event) : List (Option Text) :=
  env :: es.filterMap fun e => match e with | .setenv v => some v | _ => none

/-- The queries, in order. -/
def queries (es : List Event) : List (Nat × Nat) :=
  es.filterMap fun e => match e with | .query t i => some (t, i) | _ => none

/-- A value that lists integers whose subtraction does not overflow. -/
def GoodEnv (first : Nat) (e : Option Text) : Prop :=
  ∃ vs, EnvLists e vs ∧ ∀ v ∈ vs, -2147483648 ≤ v - (first : Int)

theorem run_spec (cpp : Bool) (first n : Nat) (env : Option Text) (es : List Event)
    (hgood : ∀ e ∈ envValues env es, GoodEnv first e)
    (hi : ∀ q ∈ queries es, q.2 < n)
    (threads : Nat → Thread) (f : Nat → List Int)
    (hth : ∀ t, threads t = Thread.start n ∨ Decided first n (f t) (threads t)) :
    ∃ w as, World.run cpp first n ⟨env, threads⟩ es = .ok (w, as) ∧
      as.map (fun a => (a.1, a.2.1)) = queries es ∧
      ∃ g : Nat → List Int,
        (∀ t, Decided first n (f t) (threads t) → g t = f t) ∧
        (∀ t e, threads t = Thread.start n → envAtFirst t env es = some e → EnvLists e (g t)) ∧
        (∀ a ∈ as, a.2.2 = decide ((first + a.2.1 : Int) ∈ g a.1)) ∧
        (∀ t, threads t = Thread.start n ∧ envAtFirst t env es = none ∧ w.threads t = Thread.start n
          ∨ Decided first n (g t) (w.threads t) ∧
            (threads t = Thread.start n → envAtFirst t env es ≠ none)) := by
  have hexcl : ∀ vs, ¬ Decided first n vs (Thread.start n) := by
    intro vs h; have := h.init; simp [Thread.start] at this
  induction es generalizing env threads f with
  | nil =>
    refine ⟨⟨env, threads⟩, [], rfl, rfl, f, fun _ _ => rfl, by simp [envAtFirst], by simp, ?_⟩
    intro t
    rcases hth t with h | h
    · exact Or.inl ⟨h, rfl, h⟩
    · exact Or.inr ⟨h, fun h' => absurd (h' ▸ h) (hexcl _)⟩
  | cons e es ih =>
    cases e with
    | setenv v =>
      obtain ⟨w, as, h1, h2, g, h3, h4, h5, h6⟩ := ih v
        (by
          intro e he
          apply hgood
          simp only [envValues, List.mem_cons] at he ⊢
          rcases he with rfl | he
          · exact Or.inr (by simp)
          · exact Or.inr (by simpa using Or.inr (by simpa using he)))
        (fun q hq => hi q (by simpa [queries] using hq)) threads f hth
      refine ⟨w, as, ?_, by simpa [queries] using h2, g, h3, h4, h5, h6⟩
      simp only [World.run, World.step, h1, List.nil_append]
    | query u i =>
      have hlt : i < n := hi (u, i) (by simp [queries])
      have hgood' : ∀ e ∈ envValues env es, GoodEnv first e := by
        intro e he
        apply hgood
        simpa [envValues] using he
      have hi' : ∀ q ∈ queries es, q.2 < n := fun q hq => hi q (by
        simp only [queries, List.filterMap_cons, List.mem_cons]
        exact Or.inr hq)
      obtain ⟨vs, hvs, hov⟩ := hgood env (by simp [envValues])
      -- the list of the querying thread
      obtain ⟨l, th, hq, hd, hl⟩ : ∃ l th, enabledMutation cpp first n env (threads u) i
          = .ok (th, decide ((first + i : Int) ∈ l)) ∧ Decided first n l th ∧
          ((threads u = Thread.start n ∧ EnvLists env l) ∨
            (l = f u ∧ Decided first n (f u) (threads u))) := by
        rcases hth u with h | h
        · rw [h]
          obtain ⟨th, h1, h2⟩ := query_start cpp first n env vs hvs hov i hlt
          exact ⟨vs, th, h1, h2, Or.inl ⟨rfl, hvs⟩⟩
        · exact ⟨f u, threads u, query_decided cpp first n env (f u) _ h i hlt, h,
            Or.inr ⟨rfl, h⟩⟩
      obtain ⟨w, as, h1, h2, g, h3, h4, h5, h6⟩ := ih env hgood' hi'
        (fun x => if x = u then th else threads x) (fun x => if x = u then l else f x) (by
          intro t
          by_cases htu : t = u
          · subst htu; simp only [if_true]; exact Or.inr hd
          · simp only [htu, if_false]; exact hth t)
      have hgu : g u = l := by
        have := h3 u
        simp only [if_true] at this
        exact this hd
      refine ⟨w, (u, i, decide ((first + i : Int) ∈ l)) :: as, ?_, ?_, g, ?_, ?_, ?_, ?_⟩
      · simp only [World.run, World.step, hq, h1, List.singleton_append]
      · simp only [List.map_cons, h2]
        rfl
      · intro t ht
        by_cases htu : t = u
        · subst htu
          rw [hgu]
          rcases hl with ⟨hs, _⟩ | ⟨hl, _⟩
          · rw [hs] at ht; exact absurd ht (hexcl _)
          · exact hl
        · have := h3 t
          simp only [htu, if_false] at this
          exact this ht
      · intro t e hs he
        by_cases htu : t = u
        · subst htu
          rw [hgu]
          simp only [envAtFirst, if_true, Option.some.injEq] at he
          subst he
          rcases hl with ⟨_, h⟩ | ⟨_, hd'⟩
          · exact h
          · rw [hs] at hd'; exact absurd hd' (hexcl _)
        · simp only [envAtFirst, Ne.symm htu, if_false] at he
          have := h4 t e
          simp only [htu, if_false] at this
          exact this hs he
      · intro a ha
        simp only [List.mem_cons] at ha
        rcases ha with rfl | ha
        · simp only [hgu]
        · exact h5 a ha
      · intro t
        by_cases htu : t = u
        · subst htu
          rcases h6 t with ⟨h, _⟩ | h
          · simp only [if_true] at h
            rw [h] at hd; exact absurd hd (hexcl _)
          · exact Or.inr ⟨h.1, fun _ => by simp [envAtFirst]⟩
        · have := h6 t
          simp only [htu, if_false] at this
          rcases this with ⟨h, h', h''⟩ | h
          · refine Or.inl ⟨h, ?_, h''⟩
            simp only [envAtFirst, Ne.symm htu, if_false]
            exact h'
          · refine Or.inr ⟨h.1, fun hs => ?_⟩
            simp only [envAtFirst, Ne.symm htu, if_false]
            exact h.2 hs

/-- Any number of threads, any interleaving of queries and changes of the
environment: every query is answered; there is one list per thread, the one the
environment variable held at that thread's first query, that determines all of
the thread's answers; at the end the quick-check flag of a thread is true iff
the thread has made no query or some id of the file is in its list.

For C (`cpp = false`) this treats queries as atomic, which `strtok` does not
guarantee (`C12_c_interleaved_false`); for values that are not lists of integers
see `C12_after_exception_false`. -/
theorem C12_threads_partial (cpp : Bool) (first n : Nat) (env : Option Text) (es : List Event)
    (hgood : ∀ e ∈ envValues env es, GoodEnv first e)
    (hi : ∀ q ∈ queries es, q.2 < n) :
    ∃ w answers, World.run cpp first n (World.start n env) es = .ok (w, answers) ∧
      answers.map (fun a => (a.1, a.2.1)) = queries es ∧
      ∃ list : Nat → List Int,
        (∀ t e, envAtFirst t env es = some e → EnvLists e (list t)) ∧
        (∀ a ∈ answers, a.2.2 = decide ((first + a.2.1 : Int) ∈ list a.1)) ∧
        (∀ t, (w.threads t).some_ = true ↔
          envAtFirst t env es = none ∨
            ∃ v ∈ list t, (first : Int) ≤ v ∧ v < first + n) := by
  obtain ⟨w, as, h1, h2, g, _, h4, h5, h6⟩ := run_spec cpp first n env es hgood hi
    (fun _ => Thread.start n) (fun _ => []) (fun _ => Or.inl rfl)
  refine ⟨w, as, h1, h2, fun t => if (envAtFirst t env es).isSome then g t else [], ?_, ?_, ?_⟩
  · intro t e he
    simp only [he, Option.isSome_some, if_true]
    exact h4 t e rfl he
  · intro a ha
    rw [h5 a ha]
    have hq : (a.1, a.2.1) ∈ queries es := by
      rw [← h2]
      exact List.mem_map_of_mem ha
    have : (envAtFirst a.1 env es).isSome = true := by
      clear h1 h2 h4 h5 h6 hgood hi
      induction es generalizing env with
      | nil => simp [queries] at hq
      | cons e es ih =>
        cases e with
        | setenv v => exact ih v (by simpa [queries] using hq)
        | query u i =>
          simp only [envAtFirst]
          split
          · rfl
          · rename_i hne
            apply ih
            simp only [queries, List.filterMap_cons, List.mem_cons] at hq
            rcases hq with hq | hq
            · simp only [Prod.mk.injEq] at hq
              exact absurd hq.1.symm hne
            · exact hq
    simp only [this, if_true]
  · intro t
    rcases h6 t with ⟨_, h, hs⟩ | ⟨h, hne⟩
    · rw [hs, h]
      simp [Thread.start]
    · have hne := hne rfl
      have hsome : (envAtFirst t env es).isSome = true := by
        cases h' : envAtFirst t env es
        · exact absurd h' hne
        · rfl
      rw [h.flag]
      simp only [hsome, if_true, hne, false_or]

/-- C, with the shared variable of `strtok` in view: with the list `1,2` and two
threads that initialise at the same time, the second thread ends up with mutant
2 disabled. -/
theorem C12_c_interleaved_false :
    ∃ s p, CState.run 0 3 t!"1,2" CState.start [0, 1, 0, 1, 0] = some s ∧
      s.phase 1 = .done p ∧ getBit p.bits 1 = true ∧ getBit p.bits 2 = false := by
  refine ⟨(CState.run 0 3 t!"1,2" CState.start [0, 1, 0, 1, 0]).get (by decide +kernel),
    ⟨[2#64], true⟩, ?_, by decide +kernel, by decide +kernel, by decide +kernel⟩
  rw [Option.some_get]

/-- When one thread runs alone, the same small steps do enable both. -/
example : ∃ s p, CState.run 0 3 t!"1,2" CState.start [1, 1, 1] = some s ∧
    s.phase 1 = .done p ∧ getBit p.bits 1 = true ∧ getBit p.bits 2 = true := by
  refine ⟨(CState.run 0 3 t!"1,2" CState.start [1, 1, 1]).get (by decide +kernel),
    ⟨[6#64], true⟩, ?_, by decide +kernel, by decide +kernel, by decide +kernel⟩
  rw [Option.some_get]

/-- C++: if the first query throws because of a malformed entry, bits set before
the exception stay, and a later query after the environment has been changed
sees them: mutant 1 is enabled although the variable is empty. -/
theorem C12_after_exception_false :
    ∃ th th', enabledMutation true 0 2 (some t!"1,x") (Thread.start 2) 0 = .threw th ∧
      enabledMutation true 0 2 (some []) th 1 = .ok (th', true) := by
  refine ⟨⟨false, [2#64], true⟩, ⟨true, [2#64], false⟩, by decide +kernel, by decide +kernel⟩

/-- Two threads, the environment changing in between; the hypotheses of
`C12_threads_partial` hold. -/
example : (match World.run true 0 3 (World.start 3 (some t!"1"))
      [.query 0 1, .setenv (some t!"2"), .query 1 1, .query 0 1, .query 1 2] with
    | .ok (_, answers) => answers.map (·.2.2)
    | _ => []) = [true, false, true, true] := by
  decide +kernel

example : ∀ e ∈ envValues (some t!"1")
      [.query 0 1, .setenv (some t!"2"), .query 1 1, .query 0 1, .query 1 2],
    GoodEnv 0 e := by
  intro e he
  simp [envValues] at he
  rcases he with rfl | rfl
  · exact ⟨[1], Or.inr ⟨[t!"1"], by simp, rfl, .num ⟨[], t!"1", by simp, by decide, by decide,
      Or.inl ⟨rfl, rfl⟩⟩ (by decide) (by decide) .nil⟩, by decide⟩
  · exact ⟨[2], Or.inr ⟨[t!"2"], by simp, rfl, .num ⟨[], t!"2", by simp, by decide, by decide,
      Or.inl ⟨rfl, rfl⟩⟩ (by decide) (by decide) .nil⟩, by decide⟩

end Dredd
