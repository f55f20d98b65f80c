/-
Comparing a run of a tracking build with a mutant: if the run has recorded none of
the enabled mutants, then what it did is something the mutant may do.
-/
import Verif.Sem.Congr

namespace Dredd

variable {S D α β V : Type}

/-- `c'` is a part of a tracking build, `c` the same part of a mutant.  `G` says of a
state of the prelude that none of the enabled mutants has been recorded.  Whenever
`c'` ends in such a state, it began in such a state and `c` may end in the same way. -/
structure Cov (Ok G : D → Prop) (c : Comp S α) (c' : Comp (S × D) α) : Prop where
  done : ∀ s d, Ok d → ∀ a p, c' (s, d) (.done a p) →
    Ok p.2 ∧ (G p.2 → G d ∧ c s (.done a p.1))
  stop : ∀ s d, Ok d → ∀ p, c' (s, d) (.stop p) → Ok p.2 ∧ (G p.2 → G d ∧ c s (.stop p.1))

variable {Ok G : D → Prop}

namespace Cov

theorem pure (a : α) : Cov Ok G (Comp.pure a : Comp S α) (Comp.pure a) where
  done s d hd x p h := by
    cases h
    exact ⟨hd, fun hg => ⟨hg, rfl⟩⟩
  stop s d hd p h := by cases h

theorem ub : Cov Ok G (Comp.ub : Comp S α) Comp.ub where
  done s d hd x p h := by cases h
  stop s d hd p h := by cases h

theorem timeout : Cov Ok G (Comp.timeout : Comp S α) Comp.timeout where
  done s d hd x p h := by cases h
  stop s d hd p h := by cases h

theorem stop' : Cov Ok G (Comp.stop : Comp S α) Comp.stop where
  done s d hd x p h := by cases h
  stop s d hd p h := by
    cases h
    exact ⟨hd, fun hg => ⟨hg, rfl⟩⟩

theorem bind {c : Comp S α} {c' : Comp (S × D) α} {k : α → Comp S β}
    {k' : α → Comp (S × D) β} (h : Cov Ok G c c') (hk : ∀ a, Cov Ok G (k a) (k' a)) :
    Cov Ok G (Comp.bind c k) (Comp.bind c' k') where
  done s d hd x p hr := by
    obtain ⟨r1, h1, h2⟩ := hr
    cases r1 with
    | done a p1 =>
      obtain ⟨ok1, g1⟩ := h.done s d hd a p1 h1
      obtain ⟨ok2, g2⟩ := (hk a).done p1.1 p1.2 ok1 x p h2
      exact ⟨ok2, fun g => ⟨(g1 (g2 g).1).1, _, (g1 (g2 g).1).2, (g2 g).2⟩⟩
    | stop p1 => cases h2
    | ub => cases h2
    | timeout => cases h2
  stop s d hd p hr := by
    obtain ⟨r1, h1, h2⟩ := hr
    cases r1 with
    | done a p1 =>
      obtain ⟨ok1, g1⟩ := h.done s d hd a p1 h1
      obtain ⟨ok2, g2⟩ := (hk a).stop p1.1 p1.2 ok1 p h2
      exact ⟨ok2, fun g => ⟨(g1 (g2 g).1).1, _, (g1 (g2 g).1).2, (g2 g).2⟩⟩
    | stop p1 =>
      cases h2
      obtain ⟨ok1, g1⟩ := h.stop s d hd p h1
      exact ⟨ok1, fun g => ⟨(g1 g).1, _, (g1 g).2, rfl⟩⟩
    | ub => cases h2
    | timeout => cases h2

theorem either {c : Comp S α} {c' : Comp (S × D) α} {k : α → Comp S β}
    {k' : α → Comp (S × D) β} {x : Comp S β} {x' : Comp (S × D) β} (h : Cov Ok G c c')
    (hk : ∀ a, Cov Ok G (k a) (k' a)) (hx : Cov Ok G x x') :
    Cov Ok G (Comp.either c k x) (Comp.either c' k' x') where
  done s d hd y p hr := by
    obtain ⟨r1, h1, h2⟩ := hr
    cases r1 with
    | done a p1 =>
      obtain ⟨ok1, g1⟩ := h.done s d hd a p1 h1
      obtain ⟨ok2, g2⟩ := (hk a).done p1.1 p1.2 ok1 y p h2
      exact ⟨ok2, fun g => ⟨(g1 (g2 g).1).1, _, (g1 (g2 g).1).2, (g2 g).2⟩⟩
    | stop p1 =>
      obtain ⟨ok1, g1⟩ := h.stop s d hd p1 h1
      obtain ⟨ok2, g2⟩ := hx.done p1.1 p1.2 ok1 y p h2
      exact ⟨ok2, fun g => ⟨(g1 (g2 g).1).1, _, (g1 (g2 g).1).2, (g2 g).2⟩⟩
    | ub => cases h2
    | timeout => cases h2
  stop s d hd p hr := by
    obtain ⟨r1, h1, h2⟩ := hr
    cases r1 with
    | done a p1 =>
      obtain ⟨ok1, g1⟩ := h.done s d hd a p1 h1
      obtain ⟨ok2, g2⟩ := (hk a).stop p1.1 p1.2 ok1 p h2
      exact ⟨ok2, fun g => ⟨(g1 (g2 g).1).1, _, (g1 (g2 g).1).2, (g2 g).2⟩⟩
    | stop p1 =>
      obtain ⟨ok1, g1⟩ := h.stop s d hd p1 h1
      obtain ⟨ok2, g2⟩ := hx.stop p1.1 p1.2 ok1 p h2
      exact ⟨ok2, fun g => ⟨(g1 (g2 g).1).1, _, (g1 (g2 g).1).2, (g2 g).2⟩⟩
    | ub => cases h2
    | timeout => cases h2

theorem union {ι : Type} (q : ι → Prop) {c : ι → Comp S α} {c' : ι → Comp (S × D) α}
    (h : ∀ i, Cov Ok G (c i) (c' i)) :
    Cov Ok G (fun s r => ∃ i, q i ∧ c i s r) fun s r => ∃ i, q i ∧ c' i s r where
  done s d hd a p hr := by
    obtain ⟨i, hi, hr⟩ := hr
    obtain ⟨ok, g⟩ := (h i).done s d hd a p hr
    exact ⟨ok, fun x => ⟨(g x).1, i, hi, (g x).2⟩⟩
  stop s d hd p hr := by
    obtain ⟨i, hi, hr⟩ := hr
    obtain ⟨ok, g⟩ := (h i).stop s d hd p hr
    exact ⟨ok, fun x => ⟨(g x).1, i, hi, (g x).2⟩⟩

theorem lift (f : S → Option (α × S)) : Cov Ok G (Comp.lift f) (Comp.lift (liftState f)) where
  done s d hd a p hr := by
    simp only [Comp.lift, liftState] at hr
    cases h : f s <;> simp_all [Comp.lift]
  stop s d hd p hr := by
    simp only [Comp.lift, liftState] at hr
    cases h : f s <;> simp_all

/-- `Cov` is respected by all ways to put computations together. -/
@[reducible] def congr (S : Type) {D : Type} (Ok G : D → Prop) : Congr S D where
  R := Cov Ok G
  pure := .pure
  ub := .ub
  timeout := .timeout
  stop := .stop'
  bind := .bind
  either := .either
  union := .union
  lift := .lift

/-- After recording: the mutant may do anything (`c`) if one of its points is recorded,
and has to do what the tracking build does (`c0`) otherwise. -/
theorem record {f : D → Option (Unit × D)} {c c0 : Comp S α} {c' : Comp (S × D) α}
    (q : Prop) (hf : ∀ d d', Ok d → f d = some ((), d') → Ok d' ∧ (G d' → G d ∧ q))
    (hc : Cov Ok G c0 c') (h : q → c0 = c) : Cov Ok G c (Comp.bind (onDevice f) fun _ => c') where
  done s d hd a p hr := by
    obtain ⟨r1, h1, h2⟩ := hr
    simp only [onDevice, Comp.lift] at h1
    cases e : f d with
    | none => simp [e] at h1; subst h1; cases h2
    | some y =>
      obtain ⟨⟨⟩, d'⟩ := y
      simp only [e, Option.map_some] at h1
      subst h1
      obtain ⟨ok1, g1⟩ := hf d d' hd e
      obtain ⟨ok2, g2⟩ := hc.done s d' ok1 a p h2
      refine ⟨ok2, fun g => ?_⟩
      obtain ⟨g3, hq⟩ := g1 (g2 g).1
      exact ⟨g3, h hq ▸ (g2 g).2⟩
  stop s d hd p hr := by
    obtain ⟨r1, h1, h2⟩ := hr
    simp only [onDevice, Comp.lift] at h1
    cases e : f d with
    | none => simp [e] at h1; subst h1; cases h2
    | some y =>
      obtain ⟨⟨⟩, d'⟩ := y
      simp only [e, Option.map_some] at h1
      subst h1
      obtain ⟨ok1, g1⟩ := hf d d' hd e
      obtain ⟨ok2, g2⟩ := hc.stop s d' ok1 p h2
      refine ⟨ok2, fun g => ?_⟩
      obtain ⟨g3, hq⟩ := g1 (g2 g).1
      exact ⟨g3, h hq ▸ (g2 g).2⟩

end Cov

end Dredd
