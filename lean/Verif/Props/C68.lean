/-
C68: whole programs made of several mutated files.
C69: the same for coverage tracking.

C18, C19, C50 and C67 are about one mutated file.  Here the files of one run of the tool are
linked into one program; the enabled mutants may be in any of them.
-/
import Verif.Sem.Linked
import Verif.Props.C02
import Verif.Props.C67

namespace Dredd

variable {S V D D' : Type} {Ok G : D → Prop} {Ok' : D' → Prop} {b : Prop}

/-- Each point satisfies the conditions for points of its file. -/
def Sites.perFile (fileOf : Nat → Nat) (Q : Nat → Sites S V) : Sites S V where
  bin s id x y := (Q (fileOf id)).bin s id x y
  un s id x := (Q (fileOf id)).un s id x
  expr s id x := (Q (fileOf id)).expr s id x
  load s id x := (Q (fileOf id)).load s id x
  stmt id := (Q (fileOf id)).stmt id

/-- The mutant does not depend on how the ids are distributed over files. -/
theorem Interp.mutant_first (l : Lang) (o : Options) (M : Machine S V) (E : Nat → Bool)
    (first first' : Nat) : Interp.mutant l o M E first = Interp.mutant l o M E first' := by
  have hb : ∀ (s : BinSite) id, (s.apply l o first id).group = (s.apply l o first' id).group :=
    fun s id => (Mutation.apply_group l o first id (.bin s)).trans
      (Mutation.apply_group l o first' id (.bin s)).symm
  have hu : ∀ (s : UnSite) id, (s.apply l o first id).group = (s.apply l o first' id).group :=
    fun s id => (Mutation.apply_group l o first id (.un s)).trans
      (Mutation.apply_group l o first' id (.un s)).symm
  have he : ∀ (s : ExprSite) id, (s.apply l o first id).group = (s.apply l o first' id).group :=
    fun s id => (Mutation.apply_group l o first id (.expr s)).trans
      (Mutation.apply_group l o first' id (.expr s)).symm
  unfold Interp.mutant
  simp only [hb, hu, he]

/-- Files can be looked at one by one. -/
theorem related_linked {C : Congr S D} {K : Interp S S V} {l : Lang} {o : Options} {M : Machine S V}
    {devs : Nat → Device D} {first fileOf : Nat → Nat} {Q : Nat → Sites S V}
    {calls : Nat → List V → Comp S V}
    (h : ∀ i, Related C K (Interp.instrumented l o M (devs i) (first i)) (Q i) calls) :
    Related C K (Interp.linked l o M devs first fileOf) (Sites.perFile fileOf Q) calls where
  machine := (h 0).machine
  raise := (h 0).raise
  step := (h 0).step
  bin s id x y hQ := (h (fileOf id)).bin s id x y hQ
  un s id x hQ := (h (fileOf id)).un s id x hQ
  expr s id x hQ := (h (fileOf id)).expr s id x hQ
  load s id x hQ := (h (fileOf id)).load s id x hQ
  stmt id hQ := (h (fileOf id)).stmt id hQ

/-! ### The preludes -/

theorem mutatingPreludes_faithful (cpp : Bool) (first n : Nat → Nat) (env : Option Text)
    (vs : List Int) (h : EnvLists env vs) (ho : ∀ i, ∀ v ∈ vs, -2147483648 ≤ v - (first i : Int))
    (i : Nat) :
    (mutatingPreludes cpp first n env i).Faithful (fun d => ∀ j, PreludeOk (first j) (n j) vs (d j))
      (fun k => inList vs (first i + k)) (n i) where
  query := by
    intro d k hd hk
    obtain ⟨d', h1, h2⟩ := (mutatingPrelude_faithful cpp (first i) (n i) env vs h (ho i)).query
      (d i) k (hd i) hk
    refine ⟨fun j => if j = i then d' else d j, by simp [mutatingPreludes, h1], fun j => ?_⟩
    dsimp only
    split
    · rename_i e
      exact e ▸ h2
    · exact hd j
  some_ := by
    intro d hd hs k hk
    exact (mutatingPrelude_faithful cpp (first i) (n i) env vs h (ho i)).some_ (d i) (hd i) hs k hk

theorem trackingPreludes_records (cpp : Bool) (first n : Nat → Nat) (i : Nat) :
    (trackingPreludes cpp first n i).Records (fun _ => True) (n i) := by
  intro d k m _ hk hm
  obtain ⟨d', h, -⟩ := trackingPrelude_records cpp (first i) (n i) true true (.inr (.inr rfl))
    (d.view i) k m trivial hk hm
  exact ⟨d.set i d', by simp [trackingPreludes, h], trivial⟩

/-- In the states of the tracking builds, the mutants of a point whose flag is set are in the
file. -/
def LoggedAll (first : Nat → Nat) (size : Nat → Nat → Nat) (d : TrackAll) : Prop :=
  ∀ i, Logged (first i) (size i) (d.view i)

theorem trackingPrelude_log (cpp : Bool) (first n : Nat) (k m : Nat) (d d' : TrackVars)
    (h : (trackingPrelude cpp first n true true).record k m d = some ((), d')) :
    ∀ i, i ∈ d.log → i ∈ d'.log := by
  simp only [trackingPrelude, Bool.not_true, Bool.false_eq_true, if_false] at h
  split at h
  · cases h
  · split at h
    · cases h
      exact fun _ h => h
    · cases h
      exact fun i hi => List.mem_append_left _ hi

theorem trackingPreludes_notes (cpp : Bool) (first n : Nat → Nat) (size : Nat → Nat → Nat)
    (E : Nat → Bool) (i : Nat) :
    (trackingPreludes cpp first n i).Notes (LoggedAll first size)
      (fun d => ∀ j, E j = true → j ∉ d.log) E (first i) (size i) := by
  intro k d d' hd h
  simp only [trackingPreludes, Option.map_eq_some_iff] at h
  obtain ⟨⟨⟨⟩, t⟩, h1, h2⟩ := h
  cases h2
  obtain ⟨h3, h4⟩ := trackingPrelude_notes cpp (first i) (n i) (size i) E k (d.view i) t (hd i) h1
  have hl := trackingPrelude_log _ _ _ _ _ _ _ h1
  refine ⟨fun j => ?_, fun g => h4 g⟩
  by_cases e : j = i
  · subst e
    simpa [TrackAll.view, TrackAll.set] using h3
  · intro m hm a ha
    have hm' : (d.view j).flags m = true := by simpa [TrackAll.view, TrackAll.set, e] using hm
    exact hl _ (hd j m hm' a ha)

/-! ### Programs -/

theorem blockFirst_mono (o : Options) (fs : List SourceFile) (i j : Nat) (h : i ≤ j) :
    blockFirst o fs i ≤ blockFirst o fs j := by
  unfold blockFirst
  obtain ⟨rest, hr⟩ : ∃ rest, fs.take j = fs.take i ++ rest :=
    ⟨(fs.take j).drop i, by
      have := List.take_append_drop i (fs.take j)
      rw [List.take_take, Nat.min_eq_left h] at this
      exact this.symm⟩
  rw [hr, runTool_append]
  exact foldl_nextId_le o true _ _

/-- C68, ids: the files of a run have disjoint blocks of ids, in the order of the files, and all
ids are below the number of mutants of the run. -/
theorem C68_blocks (o : Options) (fs : List SourceFile) (i j : Nat) (h : i < j) :
    blockFirst o fs i + blockSize o fs i ≤ blockFirst o fs j ∧
    blockFirst o fs j + blockSize o fs j ≤ (runTool o true fs).nextId := by
  have h1 := blockFirst_mono o fs i (i + 1) (by omega)
  have h2 := blockFirst_mono o fs (i + 1) j h
  have h3 := blockFirst_mono o fs j (j + 1) (by omega)
  have h4 := blockFirst_mono o fs (j + 1) (j + 1 + fs.length) (by omega)
  have e : blockFirst o fs (j + 1 + fs.length) = (runTool o true fs).nextId := by
    unfold blockFirst
    rw [List.take_of_length_le (by omega)]
  unfold blockSize
  omega

/-- The ids do not depend on whether mutants are tracked. -/
theorem blockFirst_track (o o' : Options) (hopt : o'.optimise = o.optimise) (fs : List SourceFile) :
    blockFirst o' fs = blockFirst o fs ∧ blockSize o' fs = blockSize o fs := by
  have key : ∀ (gs : List SourceFile) (st st' : RunState), st.nextId = st'.nextId →
      st.processed = st'.processed →
      (gs.foldl (processFile o' true) st).nextId = (gs.foldl (processFile o true) st').nextId := by
    intro gs
    induction gs with
    | nil => exact fun _ _ h _ => h
    | cons g gs ih =>
      intro st st' h1 h2
      rw [List.foldl_cons, List.foldl_cons]
      by_cases h : g.name ∈ st.processed
      · rw [processFile_skip _ _ _ _ h, processFile_skip _ _ _ _ (h2 ▸ h)]
        exact ih _ _ h1 h2
      · have h' : g.name ∉ st'.processed := h2 ▸ h
        refine ih _ _ ?_ ?_
        · rw [processFile_new _ _ _ _ h, processFile_new _ _ _ _ h', hopt]
          simp only [h1]
        · rw [processFile_new _ _ _ _ h, processFile_new _ _ _ _ h']
          simp only [h2]
  have e : blockFirst o' fs = blockFirst o fs := funext fun i => key _ _ _ rfl rfl
  exact ⟨e, funext fun i => by unfold blockSize; rw [e]⟩

/-- C68, mutants: the files `fs` have been mutated in one run of the tool and make up one program.
`env` is the value of the environment variable and lists the integers `vs`.  Then the program has
exactly the behaviours of the mutant in which all points, whichever file they are in, do what the
mutation information says for the mutants in `vs`. -/
theorem C68_mutant (l : Lang) (o : Options) (M : Machine S V) (fs : List SourceFile)
    (fileOf : Nat → Nat) (env : Option Text) (vs : List Int) (henv : EnvLists env vs)
    (hv : ∀ i, ∀ v ∈ vs, -2147483648 ≤ v - (blockFirst o fs i : Int)) (ho : o.track = false)
    (P : Prog S V)
    (hP : P.All (Sites.perFile fileOf fun i => fileSites l o M (blockFirst o fs i) (blockSize o fs i)
      (Interp.mutant l o M (inList vs) 0) P))
    (k f : Nat) (args : List V) :
    Sim (fun d => ∀ j, PreludeOk (blockFirst o fs j) (blockSize o fs j) vs (d j)) True
      (P.call (Interp.mutant l o M (inList vs) 0) k f args)
      (P.call (Interp.linked l o M
        (mutatingPreludes l.cpp (blockFirst o fs) (blockSize o fs) env) (blockFirst o fs) fileOf)
        k f args) := by
  refine Prog.call_sim P hP (fun k => related_linked fun i => ?_) k f args
  have := related_mutant (b := True) l o M _ (inList vs) (blockFirst o fs i) (blockSize o fs i)
    (mutatingPreludes_faithful l.cpp (blockFirst o fs) (blockSize o fs) env vs henv hv i) ho P k
  rwa [Interp.mutant_first l o M (inList vs) (blockFirst o fs i) 0] at this

/-- C68, original: if none of the integers in the environment variable is the id of a mutant of the
program, the program has only behaviours of the original, and all of them if `all` holds. -/
theorem C68_original (l : Lang) (o : Options) (M : Machine S V) (fs : List SourceFile)
    (fileOf : Nat → Nat) (env : Option Text) (vs : List Int) (henv : EnvLists env vs)
    (hv : ∀ i, ∀ v ∈ vs, -2147483648 ≤ v - (blockFirst o fs i : Int)) (ho : o.track = false)
    (hE : ∀ i id, blockFirst o fs i ≤ id → id < blockFirst o fs i + blockSize o fs i →
      (id : Int) ∉ vs)
    (all : Prop) (P : Prog S V)
    (hP : P.All (Sites.perFile fileOf fun i =>
      originalSites l o M (blockFirst o fs i) (blockSize o fs i) all P))
    (k f : Nat) (args : List V) :
    Sim (fun d => ∀ j, PreludeOk (blockFirst o fs j) (blockSize o fs j) vs (d j)) all
      (P.call (Interp.original l M) k f args)
      (P.call (Interp.linked l o M
        (mutatingPreludes l.cpp (blockFirst o fs) (blockSize o fs) env) (blockFirst o fs) fileOf)
        k f args) := by
  refine Prog.call_sim P hP (fun k => related_linked fun i => ?_) k f args
  exact related_original l o M _ _ (blockFirst o fs i) (blockSize o fs i)
    ((mutatingPreludes_faithful l.cpp (blockFirst o fs) (blockSize o fs) env vs henv hv i).none
      fun id h1 h2 => by simp [inList, hE i id h1 h2]) ho (fun _ => rfl) all P k

/-- C69, tracking: the files mutated with tracking make up a program with the behaviours of the
mutant in which nothing is enabled (which is the program mutated without tracking, by
`C68_mutant`).

Full statement: for groups without mutants as well (`trackSites`, see C19). -/
theorem C69_tracking_partial (l : Lang) (o o' : Options) (M : Machine S V) (fs : List SourceFile)
    (fileOf : Nat → Nat) (ho : o.track = true) (hopt : o'.optimise = o.optimise) (P : Prog S V)
    (hP : P.All (Sites.perFile fileOf fun i => trackSites l o M (blockFirst o fs i) (blockSize o fs i)
      (Interp.mutant l o' M (fun _ => false) 0) P))
    (k f : Nat) (args : List V) :
    Sim (fun _ => True) True (P.call (Interp.mutant l o' M (fun _ => false) 0) k f args)
      (P.call (Interp.linked l o M (trackingPreludes l.cpp (blockFirst o fs) (blockSize o fs))
        (blockFirst o fs) fileOf) k f args) := by
  refine Prog.call_sim P hP (fun k => related_linked fun i => ?_) k f args
  have := related_tracking (b := True) l o o' M _ (blockFirst o fs i) (blockSize o fs i)
    (trackingPreludes_records l.cpp (blockFirst o fs) (blockSize o fs) i) ho hopt P k
  rwa [Interp.mutant_first l o' M (fun _ => false) (blockFirst o fs i) 0] at this

/-- C69, unrecorded mutants: as C67, but the enabled mutants may be in any of the files, and the run
is of the whole program.  Partial for the reasons given at `C67_unrecorded_partial`. -/
theorem C69_unrecorded_partial (l : Lang) (o o' : Options) (M : Machine S V) (fs : List SourceFile)
    (fileOf : Nat → Nat) (size : Nat → Nat → Nat) (env : Option Text) (vs : List Int)
    (henv : EnvLists env vs)
    (hv : ∀ i, ∀ v ∈ vs, -2147483648 ≤ v - (blockFirst o' fs i : Int))
    (ho : o.track = true) (ho' : o'.track = false) (hopt : o'.optimise = o.optimise) (P : Prog S V)
    (hP : P.All (Sites.perFile fileOf fun i => coverSites l o' M (blockFirst o' fs i) (size i)
      (Interp.mutant l o' M (inList vs) 0) P))
    (hn : P.All (Sites.perFile fileOf fun i => fileSites l o' M (blockFirst o' fs i) (blockSize o' fs i)
      (Interp.mutant l o' M (inList vs) 0) P))
    (k f : Nat) (args : List V) (s : S) :
    let tracked := P.call (Interp.linked l o M
      (trackingPreludes l.cpp (blockFirst o fs) (blockSize o fs)) (blockFirst o fs) fileOf)
      k f args (s, ⟨fun _ _ => false, []⟩)
    let mutated := P.call (Interp.linked l o' M
      (mutatingPreludes l.cpp (blockFirst o' fs) (blockSize o' fs) env) (blockFirst o' fs) fileOf)
      k f args (s, fun i => Thread.start (blockSize o' fs i))
    (∀ v s' t, tracked (.done v (s', t)) → (∀ i ∈ t.log, (i : Int) ∉ vs) →
      ∃ d', mutated (.done v (s', d'))) ∧
    (∀ s' t, tracked (.stop (s', t)) → (∀ i ∈ t.log, (i : Int) ∉ vs) →
      ∃ d', mutated (.stop (s', d'))) := by
  rw [← (blockFirst_track o o' hopt fs).1, ← (blockFirst_track o o' hopt fs).2]
  intro tracked mutated
  have h1 := Prog.call_rel (C := Cov.congr S (LoggedAll (blockFirst o' fs) size)
      (fun d => ∀ j, inList vs j = true → j ∉ d.log))
    (K' := Interp.linked l o M (trackingPreludes l.cpp (blockFirst o' fs) (blockSize o' fs))
      (blockFirst o' fs) fileOf) P hP (fun k => related_linked fun i => by
    have := related_cover l o o' M _ (inList vs) (blockFirst o' fs i) (size i)
      (trackingPreludes_notes l.cpp (blockFirst o' fs) (blockSize o' fs) size (inList vs) i) ho hopt P k
    rwa [Interp.mutant_first l o' M (inList vs) (blockFirst o' fs i) 0] at this) k f args
  have h2 := C68_mutant l o' M fs fileOf env vs henv hv ho' P hn k f args
  have hs : LoggedAll (blockFirst o' fs) size ⟨fun _ _ => false, []⟩ := fun i k h => by cases h
  have hd : ∀ j, PreludeOk (blockFirst o' fs j) (blockSize o' fs j) vs
      (Thread.start (blockSize o' fs j)) := fun j => .inl rfl
  have hg : ∀ {L : List Nat}, (∀ i ∈ L, (i : Int) ∉ vs) → ∀ j, inList vs j = true → j ∉ L := by
    intro L h j hj hm
    exact h j hm (by simpa [inList] using hj)
  constructor
  · intro v s' t hr hE
    obtain ⟨-, h⟩ := h1.done s _ hs v (s', t) hr
    obtain ⟨r', hr', hrel⟩ := h2.bwd trivial s _ hd _ (h (hg hE)).2
    cases r' <;> simp only [Res.Rel] at hrel
    rename_i a p
    obtain ⟨rfl, rfl, -⟩ := hrel
    exact ⟨p.2, hr'⟩
  · intro s' t hr hE
    obtain ⟨-, h⟩ := h1.stop s _ hs (s', t) hr
    obtain ⟨r', hr', hrel⟩ := h2.bwd trivial s _ hd _ (h (hg hE)).2
    cases r' <;> simp only [Res.Rel] at hrel
    rename_i p
    obtain ⟨rfl, -⟩ := hrel
    exact ⟨p.2, hr'⟩

/-! ### Examples -/

/-- Two files with 25 mutants each. -/
def Sample.twoFiles : List SourceFile :=
  [Sample.file t!"a.cc" Sample.cpp, Sample.file t!"b.cc" Sample.cpp]

/-- The first has the ids from 0 to 24, the second those from 25 to 49. -/
def Sample.fileOf (id : Nat) : Nat := if id < 25 then 0 else 1

theorem Sample.twoFiles_blocks :
    blockFirst Sample.opts Sample.twoFiles 0 = 0 ∧ blockSize Sample.opts Sample.twoFiles 0 = 25 ∧
    blockFirst Sample.opts Sample.twoFiles 1 = 25 ∧ blockSize Sample.opts Sample.twoFiles 1 = 25 := by
  refine ⟨by decide +kernel, by decide +kernel, by decide +kernel, by decide +kernel⟩

theorem Sample.twoFiles_first (i : Nat) : blockFirst Sample.opts Sample.twoFiles i ≤ 50 := by
  have h := (C68_blocks Sample.opts Sample.twoFiles i (i + 1) (by omega)).2
  have h' := blockFirst_mono Sample.opts Sample.twoFiles i (i + 1) (by omega)
  have e : (runTool Sample.opts true Sample.twoFiles).nextId = 50 := by decide +kernel
  omega

theorem Sample.fileOf_lt (id : Nat) (h : id < 25) : Sample.fileOf id = 0 := by
  simp [Sample.fileOf, h]

theorem Sample.fileOf_30 : Sample.fileOf 30 = 1 := rfl

/-- `while (x != 3) { ++x; } return f();` in the first file, `f`, which is `return -x;`, in the
second. -/
def Sample.linkedProg : Prog Int Int where
  body f :=
    if f = 0 then
      .seq
        (.loop (.binAt (Sample.bin .ne Sample.intVal Sample.intVal) 0 (.atom (.lift Sample.read))
            (.atom (Sample.num 3))) none (.removable 5 (.expr (.atom (.lift Sample.inc)))))
        (.ret (some (.exprAt (Sample.expr Sample.intCall) 6 (.call 1 0 Fin.elim0))))
    else .ret (some (.unAt (Sample.un .minus Sample.intVal Sample.intVal) 30
      (.atom (.lift Sample.read))))
  enter _ _ s := some ((), s)
  leave _ v s := some (v.getD 0, s)

theorem Sample.linkedProg_file (K : Interp Int Int Int) :
    Sample.linkedProg.All (Sites.perFile Sample.fileOf fun i =>
      fileSites Sample.cpp Sample.opts (Sample.machine .cpp17)
        (blockFirst Sample.opts Sample.twoFiles i) (blockSize Sample.opts Sample.twoFiles i)
        K Sample.linkedProg) := by
  obtain ⟨h1, h2, h3, h4⟩ := Sample.twoFiles_blocks
  intro f
  unfold Sample.linkedProg
  dsimp only
  split
  · refine ⟨⟨⟨?_, trivial, trivial⟩, (fun _ h => by cases h), ?_, trivial⟩, ?_⟩
    · simp only [Sites.perFile, fileSites, Sample.fileOf_lt 0 (by decide), h1, h2]
      exact ⟨by decide, by decide, fun h => by cases h⟩
    · simp only [Sites.perFile, fileSites, Sample.fileOf_lt 5 (by decide), h1, h2]
      exact ⟨by decide, by decide⟩
    rintro x hx
    cases hx
    refine ⟨?_, fun i => i.elim0⟩
    simp only [Sites.perFile, fileSites, Sample.fileOf_lt 6 (by decide), h1, h2]
    exact ⟨by decide, by decide⟩
  · rintro x hx
    cases hx
    refine ⟨?_, trivial⟩
    simp only [Sites.perFile, fileSites, Sample.fileOf_30, h3, h4]
    exact ⟨by decide, by decide⟩

/-- The hypotheses can be met: `DREDD_ENABLED_MUTATION=5,30` enables a mutant in each file. -/
example (k : Nat) : Sim
    (fun d => ∀ j, PreludeOk (blockFirst Sample.opts Sample.twoFiles j)
      (blockSize Sample.opts Sample.twoFiles j) [5, 30] (d j)) True
    (Sample.linkedProg.call (Interp.mutant Sample.cpp Sample.opts (Sample.machine .cpp17)
      (inList [5, 30]) 0) k 0 [])
    (Sample.linkedProg.call (Interp.linked Sample.cpp Sample.opts (Sample.machine .cpp17)
      (mutatingPreludes true (blockFirst Sample.opts Sample.twoFiles)
        (blockSize Sample.opts Sample.twoFiles) (some t!"5,30"))
      (blockFirst Sample.opts Sample.twoFiles) Sample.fileOf) k 0 []) := by
  refine C68_mutant Sample.cpp _ _ _ _ _ _ ?_ ?_ rfl _ (Sample.linkedProg_file _) k 0 []
  · exact .inr ⟨[t!"5", t!"30"], by decide, rfl,
      .num ⟨[], t!"5", by simp, by decide, by decide, .inl ⟨rfl, by decide⟩⟩ (by decide) (by decide)
      (.num ⟨[], t!"30", by simp, by decide, by decide, .inl ⟨rfl, by decide⟩⟩ (by decide) (by decide)
        .nil)⟩
  · intro i v hv
    have := Sample.twoFiles_first i
    have hv' : v = 5 ∨ v = 30 := by simpa using hv
    omega

/-- Likewise if the variable is not set. -/
example (k : Nat) : Sim
    (fun d => ∀ j, PreludeOk (blockFirst Sample.opts Sample.twoFiles j)
      (blockSize Sample.opts Sample.twoFiles j) [] (d j)) True
    (Sample.linkedProg.call (Interp.original Sample.cpp (Sample.machine .cpp17)) k 0 [])
    (Sample.linkedProg.call (Interp.linked Sample.cpp Sample.opts (Sample.machine .cpp17)
      (mutatingPreludes true (blockFirst Sample.opts Sample.twoFiles)
        (blockSize Sample.opts Sample.twoFiles) none)
      (blockFirst Sample.opts Sample.twoFiles) Sample.fileOf) k 0 []) := by
  refine C68_original Sample.cpp _ _ _ _ _ [] (.inl ⟨rfl, rfl⟩) (fun _ _ h => by cases h) rfl
    (fun _ _ _ _ h => by cases h) True _ ?_ k 0 []
  obtain ⟨h1, h2, h3, h4⟩ := Sample.twoFiles_blocks
  intro f
  unfold Sample.linkedProg
  dsimp only
  split
  · refine ⟨⟨⟨?_, trivial, trivial⟩, (fun _ h => by cases h), ?_, trivial⟩, ?_⟩
    · simp only [Sites.perFile, originalSites, Sample.fileOf_lt 0 (by decide), h1, h2]
      exact ⟨by decide, by decide, by decide,
        fun k => ⟨⟨fun _ _ _ _ _ _ _ _ _ => rfl, fun h => by cases h⟩, .inr (.inr rfl)⟩⟩
    · simp only [Sites.perFile, originalSites, Sample.fileOf_lt 5 (by decide), h1, h2]
      exact ⟨by decide, by decide⟩
    rintro x hx
    cases hx
    refine ⟨?_, fun i => i.elim0⟩
    simp only [Sites.perFile, originalSites, Sample.fileOf_lt 6 (by decide), h1, h2]
    exact ⟨by decide, by decide, fun _ _ _ _ _ => rfl⟩
  · rintro x hx
    cases hx
    refine ⟨?_, trivial⟩
    simp only [Sites.perFile, originalSites, Sample.fileOf_30, h3, h4]
    exact ⟨by decide, by decide, fun _ => ⟨fun _ _ _ _ _ _ _ => rfl, fun h => by cases h⟩⟩

/-- Likewise for tracking. -/
example (k : Nat) : Sim (fun _ => True) True
    (Sample.linkedProg.call (Interp.mutant Sample.cpp Sample.opts (Sample.machine .cpp17)
      (fun _ => false) 0) k 0 [])
    (Sample.linkedProg.call (Interp.linked Sample.cpp Sample.track (Sample.machine .cpp17)
      (trackingPreludes true (blockFirst Sample.track Sample.twoFiles)
        (blockSize Sample.track Sample.twoFiles))
      (blockFirst Sample.track Sample.twoFiles) Sample.fileOf) k 0 []) := by
  refine C69_tracking_partial Sample.cpp Sample.track Sample.opts _ _ _ rfl rfl _ ?_ k 0 []
  obtain ⟨e1, e2⟩ := blockFirst_track Sample.opts Sample.track rfl Sample.twoFiles
  rw [e1, e2]
  obtain ⟨h1, h2, h3, h4⟩ := Sample.twoFiles_blocks
  intro f
  unfold Sample.linkedProg
  dsimp only
  split
  · refine ⟨⟨⟨?_, trivial, trivial⟩, (fun _ h => by cases h), ?_, trivial⟩, ?_⟩
    · simp only [Sites.perFile, trackSites, Sample.fileOf_lt 0 (by decide), h1, h2]
      exact ⟨by decide, by decide, by decide, fun h => by cases h⟩
    · simp only [Sites.perFile, trackSites, Sample.fileOf_lt 5 (by decide), h1, h2]
      exact ⟨by decide, by decide⟩
    rintro x hx
    cases hx
    refine ⟨?_, fun i => i.elim0⟩
    simp only [Sites.perFile, trackSites, Sample.fileOf_lt 6 (by decide), h1, h2]
    exact ⟨by decide, by decide, by decide⟩
  · rintro x hx
    cases hx
    refine ⟨?_, trivial⟩
    simp only [Sites.perFile, trackSites, Sample.fileOf_30, h3, h4]
    exact ⟨by decide, by decide, by decide⟩

/-- Likewise for a run that has recorded neither mutant 5, in the first file, nor mutant 31, in the
second. -/
example (k : Nat) (v : Int) (s s' : Int) (t : TrackAll)
    (h : Sample.linkedProg.call (Interp.linked Sample.cpp Sample.track (Sample.machine .cpp17)
      (trackingPreludes true (blockFirst Sample.track Sample.twoFiles)
        (blockSize Sample.track Sample.twoFiles))
      (blockFirst Sample.track Sample.twoFiles) Sample.fileOf) k 0 []
      (s, ⟨fun _ _ => false, []⟩) (.done v (s', t)))
    (h5 : 5 ∉ t.log) (h31 : 31 ∉ t.log) :
    ∃ d', Sample.linkedProg.call (Interp.linked Sample.cpp Sample.opts (Sample.machine .cpp17)
      (mutatingPreludes true (blockFirst Sample.opts Sample.twoFiles)
        (blockSize Sample.opts Sample.twoFiles) (some t!"5,31"))
      (blockFirst Sample.opts Sample.twoFiles) Sample.fileOf) k 0 []
      (s, fun i => Thread.start (blockSize Sample.opts Sample.twoFiles i)) (.done v (s', d')) := by
  refine (C69_unrecorded_partial Sample.cpp Sample.track Sample.opts (Sample.machine .cpp17)
    Sample.twoFiles Sample.fileOf
    (fun i k => if i = 0 ∧ k = 5 then 1 else if i = 0 ∧ k = 6 then 6 else 2) (some t!"5,31") [5, 31]
    ?_ ?_ rfl rfl rfl _ ?_ (Sample.linkedProg_file _) k 0 [] s).1 v s' t h ?_
  · exact .inr ⟨[t!"5", t!"31"], by decide, rfl,
      .num ⟨[], t!"5", by simp, by decide, by decide, .inl ⟨rfl, by decide⟩⟩ (by decide) (by decide)
      (.num ⟨[], t!"31", by simp, by decide, by decide, .inl ⟨rfl, by decide⟩⟩ (by decide) (by decide)
        .nil)⟩
  · intro i v hv
    have := Sample.twoFiles_first i
    have hv' : v = 5 ∨ v = 31 := by simpa using hv
    omega
  · obtain ⟨h1, h2, h3, h4⟩ := Sample.twoFiles_blocks
    intro f
    unfold Sample.linkedProg
    dsimp only
    split
    · refine ⟨⟨⟨?_, trivial, trivial⟩, (fun _ h => by cases h), ?_, trivial⟩, ?_⟩
      · simp only [Sites.perFile, coverSites, Sample.fileOf_lt 0 (by decide), h1]
        exact ⟨by decide, by decide, (fun h => by cases h), fun h => by cases h⟩
      · simp only [Sites.perFile, coverSites, Sample.fileOf_lt 5 (by decide), h1]
        exact ⟨by decide, by decide⟩
      rintro x hx
      cases hx
      refine ⟨?_, fun i => i.elim0⟩
      simp only [Sites.perFile, coverSites, Sample.fileOf_lt 6 (by decide), h1]
      exact ⟨by decide, by decide⟩
    · rintro x hx
      cases hx
      refine ⟨?_, trivial⟩
      simp only [Sites.perFile, coverSites, Sample.fileOf_30, h3]
      exact ⟨by decide, by decide⟩
  · intro i hi hm
    have : i = 5 ∨ i = 31 := by
      simp only [List.mem_cons, List.not_mem_nil, or_false] at hm
      omega
    rcases this with rfl | rfl
    · exact h5 hi
    · exact h31 hi

end Dredd
