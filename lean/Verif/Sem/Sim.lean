/-
Comparing a computation of the program with a computation of the instrumented
program.  The state of the latter is the state of the former together with the
variables of the prelude.
-/
import Verif.Sem.Congr

namespace Dredd

variable {S D α β V : Type}

/-- Equal results, apart from the variables of the prelude, which satisfy
`Ok`. -/
def Res.Rel (Ok : D → Prop) : Res S α → Res (S × D) α → Prop
  | .done a s, .done a' p => a = a' ∧ s = p.1 ∧ Ok p.2
  | .stop s, .stop p => s = p.1 ∧ Ok p.2
  | .ub, .ub => True
  | .timeout, .timeout => True
  | _, _ => False

/-- `c'` does what `c` allows: every result of `c'` is a result of `c` (and, if
`b` holds, every result of `c` is one of `c'`). -/
structure Sim (Ok : D → Prop) (b : Prop) (c : Comp S α) (c' : Comp (S × D) α) : Prop where
  fwd : ∀ s d, Ok d → ∀ r', c' (s, d) r' → ∃ r, c s r ∧ r.Rel Ok r'
  bwd : b → ∀ s d, Ok d → ∀ r, c s r → ∃ r', c' (s, d) r' ∧ r.Rel Ok r'

variable {Ok : D → Prop} {b : Prop}

theorem Sim.pure (a : α) : Sim Ok b (Comp.pure a : Comp S α) (Comp.pure a) := by
  constructor
  · rintro s d hd r' rfl
    exact ⟨_, rfl, rfl, rfl, hd⟩
  · rintro _ s d hd r rfl
    exact ⟨_, rfl, rfl, rfl, hd⟩

theorem Sim.ub : Sim Ok b (Comp.ub : Comp S α) Comp.ub := by
  constructor
  · rintro s d hd r' rfl
    exact ⟨_, rfl, trivial⟩
  · rintro _ s d hd r rfl
    exact ⟨_, rfl, trivial⟩

theorem Sim.timeout : Sim Ok b (Comp.timeout : Comp S α) Comp.timeout := by
  constructor
  · rintro s d hd r' rfl
    exact ⟨_, rfl, trivial⟩
  · rintro _ s d hd r rfl
    exact ⟨_, rfl, trivial⟩

theorem Sim.bind {c : Comp S α} {c' : Comp (S × D) α} {k : α → Comp S β}
    {k' : α → Comp (S × D) β} (h : Sim Ok b c c') (hk : ∀ a, Sim Ok b (k a) (k' a)) :
    Sim Ok b (Comp.bind c k) (Comp.bind c' k') := by
  constructor
  · rintro s d hd r' ⟨r1', h1', h2'⟩
    obtain ⟨r1, h1, hr⟩ := h.fwd s d hd r1' h1'
    cases r1 <;> cases r1' <;> simp only [Res.Rel] at hr
    · obtain ⟨rfl, rfl, hok⟩ := hr
      obtain ⟨r, h2, hr2⟩ := (hk _).fwd _ _ hok r' h2'
      exact ⟨r, ⟨_, h1, h2⟩, hr2⟩
    · rename_i p
      obtain ⟨rfl, hok⟩ := hr
      simp only [Comp.next] at h2'
      subst h2'
      exact ⟨_, ⟨_, h1, rfl⟩, rfl, hok⟩
    · simp only [Comp.next] at h2'
      subst h2'
      exact ⟨_, ⟨_, h1, rfl⟩, trivial⟩
    · simp only [Comp.next] at h2'
      subst h2'
      exact ⟨_, ⟨_, h1, rfl⟩, trivial⟩
  · rintro hb s d hd r ⟨r1, h1, h2⟩
    obtain ⟨r1', h1', hr⟩ := h.bwd hb s d hd r1 h1
    cases r1 <;> cases r1' <;> simp only [Res.Rel] at hr
    · obtain ⟨rfl, rfl, hok⟩ := hr
      obtain ⟨r', h2', hr2⟩ := (hk _).bwd hb _ _ hok r h2
      exact ⟨r', ⟨_, h1', h2'⟩, hr2⟩
    · rename_i p
      obtain ⟨rfl, hok⟩ := hr
      simp only [Comp.next] at h2
      subst h2
      exact ⟨_, ⟨_, h1', rfl⟩, rfl, hok⟩
    · simp only [Comp.next] at h2
      subst h2
      exact ⟨_, ⟨_, h1', rfl⟩, trivial⟩
    · simp only [Comp.next] at h2
      subst h2
      exact ⟨_, ⟨_, h1', rfl⟩, trivial⟩

theorem Sim.stop : Sim Ok b (Comp.stop : Comp S α) Comp.stop := by
  constructor
  · rintro s d hd r' rfl
    exact ⟨_, rfl, rfl, hd⟩
  · rintro _ s d hd r rfl
    exact ⟨_, rfl, rfl, hd⟩

theorem Sim.either {c : Comp S α} {c' : Comp (S × D) α} {k : α → Comp S β}
    {k' : α → Comp (S × D) β} {h : Comp S β} {h' : Comp (S × D) β} (hc : Sim Ok b c c')
    (hk : ∀ a, Sim Ok b (k a) (k' a)) (hh : Sim Ok b h h') :
    Sim Ok b (Comp.either c k h) (Comp.either c' k' h') := by
  constructor
  · rintro s d hd r' ⟨r1', h1', h2'⟩
    obtain ⟨r1, h1, hr⟩ := hc.fwd s d hd r1' h1'
    cases r1 <;> cases r1' <;> simp only [Res.Rel] at hr
    · obtain ⟨rfl, rfl, hok⟩ := hr
      obtain ⟨r, h2, hr2⟩ := (hk _).fwd _ _ hok r' h2'
      exact ⟨r, ⟨_, h1, h2⟩, hr2⟩
    · obtain ⟨rfl, hok⟩ := hr
      obtain ⟨r, h2, hr2⟩ := hh.fwd _ _ hok r' h2'
      exact ⟨r, ⟨_, h1, h2⟩, hr2⟩
    · dsimp only at h2'
      subst h2'
      exact ⟨_, ⟨_, h1, rfl⟩, trivial⟩
    · dsimp only at h2'
      subst h2'
      exact ⟨_, ⟨_, h1, rfl⟩, trivial⟩
  · rintro hb s d hd r ⟨r1, h1, h2⟩
    obtain ⟨r1', h1', hr⟩ := hc.bwd hb s d hd r1 h1
    cases r1 <;> cases r1' <;> simp only [Res.Rel] at hr
    · obtain ⟨rfl, rfl, hok⟩ := hr
      obtain ⟨r', h2', hr2⟩ := (hk _).bwd hb _ _ hok r h2
      exact ⟨r', ⟨_, h1', h2'⟩, hr2⟩
    · obtain ⟨rfl, hok⟩ := hr
      obtain ⟨r', h2', hr2⟩ := hh.bwd hb _ _ hok r h2
      exact ⟨r', ⟨_, h1', h2'⟩, hr2⟩
    · dsimp only at h2
      subst h2
      exact ⟨_, ⟨_, h1', rfl⟩, trivial⟩
    · dsimp only at h2
      subst h2
      exact ⟨_, ⟨_, h1', rfl⟩, trivial⟩

theorem Sim.union {ι : Type} (p : ι → Prop) {c : ι → Comp S α} {c' : ι → Comp (S × D) α}
    (h : ∀ i, Sim Ok b (c i) (c' i)) :
    Sim Ok b (fun s r => ∃ i, p i ∧ c i s r) fun s r => ∃ i, p i ∧ c' i s r := by
  constructor
  · rintro s x hx r' ⟨i, hi, h1⟩
    obtain ⟨r, h2, h3⟩ := (h i).fwd s x hx r' h1
    exact ⟨r, ⟨i, hi, h2⟩, h3⟩
  · rintro hb s x hx r ⟨i, hi, h1⟩
    obtain ⟨r', h2, h3⟩ := (h i).bwd hb s x hx r h1
    exact ⟨r', ⟨i, hi, h2⟩, h3⟩

theorem Sim.lift (f : S → Option (α × S)) : Sim Ok b (Comp.lift f) (Comp.lift (liftState f)) := by
  constructor
  · intro s d hd r' h
    refine ⟨_, rfl, ?_⟩
    simp only [Comp.lift, liftState] at h
    subst h
    cases h : f s <;> simp [Res.Rel, hd]
  · intro _ s d hd r h
    refine ⟨_, rfl, ?_⟩
    simp only [Comp.lift] at h
    subst h
    cases h : f s <;> simp [Res.Rel, liftState, h, hd]

/-- A step of the prelude is not visible. -/
theorem Sim.device {f : D → Option (α × D)} {a : α} {c : Comp S β} {k : α → Comp (S × D) β}
    (hf : ∀ d, Ok d → ∃ d', f d = some (a, d') ∧ Ok d') (h : Sim Ok b c (k a)) :
    Sim Ok b c (Comp.bind (onDevice f) k) := by
  constructor
  · rintro s d hd r' ⟨r1, h1, h2⟩
    obtain ⟨d', e, hd'⟩ := hf d hd
    simp only [onDevice, Comp.lift, e, Option.map_some] at h1
    subst h1
    exact h.fwd s d' hd' r' h2
  · intro hb s d hd r hr
    obtain ⟨d', e, hd'⟩ := hf d hd
    obtain ⟨r', h1, h2⟩ := h.bwd hb s d' hd' r hr
    refine ⟨r', ⟨.done a (s, d'), ?_, h1⟩, h2⟩
    simp [onDevice, Comp.lift, e]

/-- Asking for less. -/
theorem Sim.mono {b' : Prop} {c : Comp S α} {c' : Comp (S × D) α} (h : Sim Ok b c c')
    (hb : b' → b) : Sim Ok b' c c' := ⟨h.fwd, fun x => h.bwd (hb x)⟩

/-- Allowing more. -/
theorem Sim.widen {c e : Comp S α} {c' : Comp (S × D) α} (h : Sim Ok b c c')
    (h1 : ∀ s r, c s r → e s r) (h2 : b → ∀ s r, e s r → c s r) : Sim Ok b e c' where
  fwd s d hd r' hr' := by
    obtain ⟨r, hr, hrel⟩ := h.fwd s d hd r' hr'
    exact ⟨r, h1 s r hr, hrel⟩
  bwd hb s d hd r hr := h.bwd hb s d hd r (h2 hb s r hr)

/-- `Sim` is respected by all ways to put computations together. -/
@[reducible] def Sim.congr (S : Type) {D : Type} (Ok : D → Prop) (b : Prop) : Congr S D where
  R := Sim Ok b
  pure := .pure
  ub := .ub
  timeout := .timeout
  stop := .stop
  bind := .bind
  either := .either
  union := .union
  lift := .lift

theorem Sim.ofOption (o : Option α) :
    Sim Ok b (Comp.ofOption o : Comp S α) (Comp.ofOption o) := (congr S Ok b).ofOption o

theorem Sim.or {c d : Comp S α} {c' d' : Comp (S × D) α} (h : Sim Ok b c c')
    (k : Sim Ok b d d') : Sim Ok b (Comp.or c d) (Comp.or c' d') := (congr S Ok b).or h k

theorem Sim.both (o : Order) {c : Comp S α} {d : Comp S β} {c' : Comp (S × D) α}
    {d' : Comp (S × D) β} (h : Sim Ok b c c') (k : Sim Ok b d d') :
    Sim Ok b (Comp.both o c d) (Comp.both o c' d') := (congr S Ok b).both o h k

theorem Sim.logical {M : Machine S V} (op : BOp) {c1 c2 : Comp S V} {c1' c2' : Comp (S × D) V}
    (h1 : Sim Ok b c1 c1') (h2 : Sim Ok b c2 c2') :
    Sim Ok b (M.logical op c1 c2) ((M.withState D).logical op c1' c2') :=
  (congr S Ok b).logical op h1 h2

theorem Sim.evalBin {M : Machine S V} (op : BOp) {c1 c2 : Comp S V} {c1' c2' : Comp (S × D) V}
    (h1 : Sim Ok b c1 c1') (h2 : Sim Ok b c2 c2') :
    Sim Ok b (M.evalBin op c1 c2) ((M.withState D).evalBin op c1' c2') :=
  (congr S Ok b).evalBin op h1 h2

theorem Sim.evalUn {M : Machine S V} (op : UOp) {c : Comp S V} {c' : Comp (S × D) V}
    (h : Sim Ok b c c') : Sim Ok b (M.evalUn op c) ((M.withState D).evalUn op c') :=
  (congr S Ok b).evalUn op h

theorem Sim.retEval {M : Machine S V} (e : RetE) {a : Arg → Comp S V}
    {a' : Arg → Comp (S × D) V} (h : ∀ x, Sim Ok b (a x) (a' x)) :
    Sim Ok b (e.eval M a) (e.eval (M.withState D) a') := (congr S Ok b).retEval e h

theorem Sim.retRun {M : Machine S V} (ty : Text) (e : RetE) {a : Arg → Comp S V}
    {a' : Arg → Comp (S × D) V} (h : ∀ x, Sim Ok b (a x) (a' x)) :
    Sim Ok b (e.run M ty a) (e.run (M.withState D) ty a') := (congr S Ok b).retRun ty e h

theorem Sim.withArgs (m1 m2 : ArgMode) {c1 c2 : Comp S V} {c1' c2' : Comp (S × D) V}
    {body : Comp S V → Comp S V → Comp S α}
    {body' : Comp (S × D) V → Comp (S × D) V → Comp (S × D) α}
    (h1 : Sim Ok b c1 c1') (h2 : Sim Ok b c2 c2')
    (hb : ∀ x y x' y', Sim Ok b x x' → Sim Ok b y y' → Sim Ok b (body x y) (body' x' y')) :
    Sim Ok b (withArgs m1 m2 c1 c2 body) (Dredd.withArgs m1 m2 c1' c2' body') :=
  (congr S Ok b).withArgs m1 m2 h1 h2 hb

theorem Sim.withArg (m : ArgMode) {c : Comp S V} {c' : Comp (S × D) V}
    {body : Comp S V → Comp S α} {body' : Comp (S × D) V → Comp (S × D) α}
    (h : Sim Ok b c c') (hb : ∀ x x', Sim Ok b x x' → Sim Ok b (body x) (body' x')) :
    Sim Ok b (withArg m c body) (Dredd.withArg m c' body') := (congr S Ok b).withArg m h hb

end Dredd
