/-
C20, C21: the coverage file and the tracking array.
-/
import Verif.Proofs.Tracking
import Verif.Props.C45

namespace Dredd

/-- With non-empty groups, for every schedule of any number of threads: when all
threads have finished, the tracking file holds exactly the ids of the groups
reached, each once.

Full statement: without `Blocks.pos`; false by `C20_empty_group_false`. -/
theorem C20_recorded_partial (c : TrackCfg) (henv : c.envSet = true) (hopen : c.canOpen = true)
    (calls : Nat → List RecCall) (hb : Blocks c fun a => ∃ t, a ∈ calls t)
    (sched : List Nat) (s : TrackState)
    (hr : TrackState.run c (TrackState.start calls) sched = some s) (hf : s.Finished) :
    s.log.Nodup ∧ ∀ x, x ∈ s.log ↔ ∃ t, ∃ a ∈ calls t, a.covers c x := by
  have inv := trackInv_run c henv hopen calls hb sched _ s (trackInv_start c calls) hr
  refine ⟨inv.nodup, fun x => ?_⟩
  have hp : ¬ ∃ t, s.pending t x := by
    rintro ⟨t, y, r, h, _⟩
    rw [(hf t).2] at h; simp at h
  have hall := inv.all x
  simp only [hp, or_false] at hall
  rw [hall]
  constructor
  · rintro ⟨t, a, ha, _, hc⟩; exact ⟨t, a, ha, hc⟩
  · rintro ⟨t, a, ha, hc⟩
    refine ⟨t, a, ha, ?_, hc⟩
    obtain ⟨done, h1, h2⟩ := inv.pre t
    rw [(hf t).1, List.append_nil] at h1
    exact h2 a (h1 ▸ ha)

/-- At every moment before that, nothing is in the file twice and everything in
it has been reached. -/
theorem C20_during_partial (c : TrackCfg) (henv : c.envSet = true) (hopen : c.canOpen = true)
    (calls : Nat → List RecCall) (hb : Blocks c fun a => ∃ t, a ∈ calls t)
    (sched : List Nat) (s : TrackState)
    (hr : TrackState.run c (TrackState.start calls) sched = some s) :
    s.log.Nodup ∧ ∀ x ∈ s.log, ∃ t a, s.Reached calls t a ∧ a.covers c x := by
  have inv := trackInv_run c henv hopen calls hb sched _ s (trackInv_start c calls) hr
  refine ⟨inv.nodup, fun x hx => ?_⟩
  obtain ⟨t, a, ha, hfl, hc⟩ := (inv.all x).mp (Or.inl hx)
  obtain ⟨u, b, h1, h2, h3⟩ := inv.claimed _ _ hfl
  have hb' : b ∈ calls u := by
    obtain ⟨done, hd, hm⟩ := h3
    rw [hd]; simp [hm]
  have hab : a = b := by
    rcases hb.disj a b ⟨t, ha⟩ ⟨u, hb'⟩ with h | h
    · exact h
    · exfalso
      have hp1 := hb.pos a ⟨t, ha⟩
      have hp2 := hb.pos b ⟨u, hb'⟩
      apply h (c.first a.file + a.k)
      simp only [RecCall.covers, h1, h2]
      omega
  exact ⟨u, b, h3, hab ▸ hc⟩

/-- C21: every schedule runs without an index outside the array, provided every
call belongs to a non-empty group of its file (and, in C, the tracking file can
be opened).

Full statement: without the restriction on groups; false by
`C21_empty_group_false`. -/
theorem C21_in_range_partial (c : TrackCfg) (hopen : c.cpp = true ∨ c.canOpen = true)
    (calls : Nat → List RecCall) (hb : Blocks c fun a => ∃ t, a ∈ calls t)
    (sched : List Nat) :
    ∃ s, TrackState.run c (TrackState.start calls) sched = some s := by
  have key : ∀ (sched : List Nat) (s : TrackState),
      (∀ t, ∀ a ∈ (s.threads t).todo, a ∈ calls t) →
      ∃ s', TrackState.run c s sched = some s' := by
    intro sched
    induction sched with
    | nil => intro s _; exact ⟨s, rfl⟩
    | cons t ts ih =>
      intro s hs
      have hset : ∀ (s' : TrackState) (th : TrackThread), s'.threads = s.threads →
          (∀ a ∈ th.todo, a ∈ (s.threads t).todo) →
          ∀ u, ∀ a ∈ ((s'.setThread t th).threads u).todo, a ∈ calls u := by
        intro s' th he hsub u a ha
        by_cases hut : u = t
        · subst hut
          rw [setThread_same] at ha
          exact hs u a (hsub a ha)
        · rw [setThread_other _ _ _ _ hut, he] at ha
          exact hs u a ha
      have hstep : ∃ s1, s.step c t = some s1 ∧ ∀ u, ∀ a ∈ (s1.threads u).todo, a ∈ calls u := by
        unfold TrackState.step
        split
        · exact ⟨_, rfl, hset s ⟨_, _⟩ rfl (fun a ha => ha)⟩
        · exact ⟨_, rfl, hset s ⟨_, _⟩ rfl (fun a ha => ha)⟩
        · split
          · exact ⟨_, rfl, hs⟩
          · rename_i call rest htodo
            have hmem : call ∈ calls t := hs t call (by rw [htodo]; simp)
            have h1 := hb.pos call ⟨t, hmem⟩
            have h2 := hb.bound call ⟨t, hmem⟩
            have hlt : ¬ c.size call.file ≤ call.k := by omega
            have hsub : ∀ a ∈ rest, a ∈ (s.threads t).todo := by
              intro a ha; rw [htodo]; simp [ha]
            simp only [hlt, if_false]
            split
            · exact ⟨_, rfl, hset s ⟨_, _⟩ rfl hsub⟩
            · split
              · exact ⟨_, rfl, hset { s with flags := _ } ⟨_, _⟩ rfl hsub⟩
              · split
                · rename_i hno
                  split
                  · exact ⟨_, rfl, hset { s with flags := _ } ⟨_, _⟩ rfl hsub⟩
                  · rename_i hcpp
                    rcases hopen with h | h
                    · exact absurd h hcpp
                    · rw [h] at hno; simp at hno
                · exact ⟨_, rfl, hset { s with flags := _ } ⟨_, _⟩ rfl hsub⟩
      obtain ⟨s1, h1, h2⟩ := hstep
      obtain ⟨s2, h3⟩ := ih s1 h2
      exact ⟨s2, by simp only [TrackState.run, h1, Option.bind_some, h3]⟩
  exact key sched _ fun t a ha => ha

/-- Without the environment variable nothing is written. -/
theorem C20_unset (c : TrackCfg) (henv : c.envSet = false) (calls : Nat → List RecCall)
    (sched : List Nat) (s : TrackState)
    (hr : TrackState.run c (TrackState.start calls) sched = some s) : s.log = [] := by
  have key : ∀ (sched : List Nat) (s0 s : TrackState), s0.log = [] →
      (∀ t, (s0.threads t).writing = none) → TrackState.run c s0 sched = some s → s.log = [] := by
    intro sched
    induction sched with
    | nil => intro s0 s h _ hr; simp only [TrackState.run, Option.some.injEq] at hr; rw [← hr, h]
    | cons t ts ih =>
      intro s0 s h hw hr
      simp only [TrackState.run, Option.bind_eq_some_iff] at hr
      obtain ⟨s1, h1, h2⟩ := hr
      have : s1.log = [] ∧ ∀ t, (s1.threads t).writing = none := by
        unfold TrackState.step at h1
        rw [hw t] at h1
        simp only at h1
        have hset : ∀ (s' : TrackState) (todo : List RecCall), s'.threads = s0.threads →
            ∀ u, ((s'.setThread t ⟨todo, none⟩).threads u).writing = none := by
          intro s' todo he u
          by_cases hut : u = t
          · subst hut; rw [setThread_same]
          · rw [setThread_other _ _ _ _ hut, he]; exact hw u
        split at h1
        · simp only [Option.some.injEq] at h1; rw [← h1]; exact ⟨h, hw⟩
        · split at h1
          · simp at h1
          · split at h1
            · simp only [Option.some.injEq] at h1; rw [← h1]
              exact ⟨h, hset s0 _ rfl⟩
            · simp only [henv, Bool.not_false, if_true, Option.some.injEq] at h1
              rw [← h1]
              exact ⟨h, hset { s0 with flags := _ } _ rfl⟩
      exact ih s1 s this.1 this.2 h2
  exact key sched _ s rfl (fun _ => rfl) hr

/-! ### The calls a tracking build makes -/

theorem numbered_disjoint (l opt id ms) : ∀ p ∈ numbered l opt id ms,
    ∀ q ∈ numbered l opt id ms,
      p = q ∨ p.1 + p.2.count l opt ≤ q.1 ∨ q.1 + q.2.count l opt ≤ p.1 := by
  induction ms generalizing id with
  | nil => simp [numbered]
  | cons m ms ih =>
    intro p hp q hq
    simp only [numbered, List.mem_cons] at hp hq
    rcases hp with rfl | hp <;> rcases hq with rfl | hq
    · exact Or.inl rfl
    · have := numbered_bounds _ _ _ _ q hq
      exact Or.inr (Or.inl this.1)
    · have := numbered_bounds _ _ _ _ p hp
      exact Or.inr (Or.inr this.1)
    · exact ih _ p hp q hq

/-- A call of the recorder that the instrumented point `p` can make: with a
local id the tool wrote at the point, and the number passed by a function
generated for it, or 1 for a statement. -/
def PointCall (l : Lang) (o : Options) (first : Nat) (p : Nat × Mutation) (k m : Nat) : Prop :=
  let a := p.2.apply l o first p.1
  k ∈ a.localIds ∧ ((∃ fn ∈ a.decls, m ∈ fn.records) ∨ ((∃ s, p.2 = .stmt s) ∧ m = 1))

theorem pointCall_eq (l o first p k m) (ht : o.track = true) (h : PointCall l o first p k m) :
    k = p.1 - first ∧ m = p.2.count l o.optimise := by
  obtain ⟨hk, hm⟩ := h
  have hids : (p.2.apply l o first p.1).group.ids.length = p.2.count l o.optimise := by
    rw [apply_ids, List.length_range']
  refine ⟨(apply_localIds l o first p.1 p.2).2 k hk, ?_⟩
  rw [← hids]
  obtain ⟨id, mu⟩ := p
  simp only at hm ⊢
  have hfn : ∀ fn, (mu.apply l o first id).decls = [fn] →
      fn.records = [(mu.apply l o first id).group.ids.length] →
      m = (mu.apply l o first id).group.ids.length := by
    intro fn h1 h2
    rcases hm with ⟨fn', hfn', hm⟩ | ⟨⟨s, rfl⟩, _⟩
    · rw [h1] at hfn'
      simp only [List.mem_singleton] at hfn'
      subst hfn'
      rw [h2] at hm
      simpa using hm
    · have := (C45_stmt l o first id s).2.1
      rw [this] at h1; simp at h1
  cases mu with
  | stmt s =>
    have h := C45_stmt l o first id s
    rcases hm with ⟨fn, hfn, _⟩ | ⟨_, rfl⟩
    · rw [h.2.1] at hfn; simp at hfn
    · rw [h.1]; rfl
  | un s =>
    obtain ⟨fn, h1, _, h3⟩ := C45_function l o first id (.un s) (Or.inl ⟨s, rfl⟩)
    exact hfn fn h1 (by simpa [ht] using h3)
  | expr s =>
    obtain ⟨fn, h1, _, h3⟩ := C45_function l o first id (.expr s) (Or.inr (Or.inl ⟨s, rfl⟩))
    exact hfn fn h1 (by simpa [ht] using h3)
  | bin s =>
    by_cases hl : l.cpp = false ∧ s.op.isLogical = true
    · have h := C45_c_logical l o first id s hl.1 hl.2
      simp only [ht, if_true] at h
      rcases hm with ⟨fn, hfn, hm⟩ | ⟨⟨_, h⟩, _⟩
      · have : fn.records ∈ (Mutation.apply l o first id (.bin s)).decls.map MutFn.records :=
          List.mem_map_of_mem hfn
        rw [h.2.2] at this
        simp only [List.mem_singleton] at this
        rw [this] at hm
        rw [h.1]
        simpa using hm
      · simp at h
    · obtain ⟨fn, h1, _, h3⟩ := C45_function l o first id (.bin s)
        (Or.inr (Or.inr ⟨s, rfl, hl⟩))
      exact hfn fn h1 (by simpa [ht] using h3)

/-- The first id and the number of mutants of file number `j` of a run. -/
def runCfg (o : Options) (fs : List SourceFile) (cpp envSet canOpen : Bool) : TrackCfg where
  cpp := cpp
  first := fun j => (runTool o true (fs.take j)).nextId
  size := fun j => (runTool o true (fs.take (j + 1))).nextId - (runTool o true (fs.take j)).nextId
  envSet := envSet
  canOpen := canOpen

/-- The calls that the instrumented points of the files of a run can make. -/
def RunCall (o : Options) (fs : List SourceFile) (a : RecCall) : Prop :=
  ∃ f, fs[a.file]? = some f ∧ f.hasErrors = false ∧
    ∃ p ∈ numbered f.lang o.optimise (runTool o true (fs.take a.file)).nextId f.tree.post,
      PointCall f.lang o (runTool o true (fs.take a.file)).nextId p a.k a.m

theorem runTool_take_succ (o : Options) (fs : List SourceFile) (hnd : (fs.map (·.name)).Nodup)
    (j : Nat) (f : SourceFile) (hj : fs[j]? = some f) :
    (runTool o true (fs.take (j + 1))).nextId
      = (runTool o true (fs.take j)).nextId + fileCount o.optimise f := by
  have ht : fs.take (j + 1) = fs.take j ++ [f] := by
    rw [List.take_add_one, hj]; rfl
  rw [ht, runTool_append]
  simp only [List.foldl_cons, List.foldl_nil]
  rw [processFile_new]
  rw [runTool_processed]
  intro h
  have hnd' : ((fs.take (j + 1)).map (·.name)).Nodup := by
    rw [List.map_take]
    exact List.Nodup.sublist (List.take_sublist _ _) hnd
  rw [ht, List.map_append, List.nodup_append] at hnd'
  exact hnd'.2.2 f.name h f.name (by simp) rfl

theorem runTool_take_mono (o : Options) (fs : List SourceFile) (i j : Nat) (h : i ≤ j) :
    (runTool o true (fs.take i)).nextId ≤ (runTool o true (fs.take j)).nextId := by
  have : fs.take j = fs.take i ++ (fs.drop i).take (j - i) := by
    rw [← List.take_add]
    congr 1; omega
  rw [this, runTool_append]
  exact foldl_nextId_le o true _ _

/-- In a tracking build of any list of (different) files in which every
instrumented point offers at least one mutant, the calls of the recorder meet
the hypotheses of the theorems above. -/
theorem C20_calls (o : Options) (ht : o.track = true) (fs : List SourceFile)
    (hnd : (fs.map (·.name)).Nodup)
    (hne : ∀ f ∈ fs, ∀ m ∈ f.tree.post, m.count f.lang o.optimise ≠ 0) (cpp envSet canOpen : Bool) :
    Blocks (runCfg o fs cpp envSet canOpen) (RunCall o fs) := by
  have facts : ∀ a, RunCall o fs a → ∃ f, fs[a.file]? = some f ∧ f.hasErrors = false ∧
      ∃ p ∈ numbered f.lang o.optimise (runTool o true (fs.take a.file)).nextId f.tree.post,
        a.k = p.1 - (runTool o true (fs.take a.file)).nextId ∧
        a.m = p.2.count f.lang o.optimise ∧ 0 < a.m ∧
        (runTool o true (fs.take a.file)).nextId ≤ p.1 ∧
        p.1 + a.m ≤ (runTool o true (fs.take (a.file + 1))).nextId := by
    rintro a ⟨f, hf, herr, p, hp, hc⟩
    obtain ⟨h1, h2⟩ := pointCall_eq _ _ _ _ _ _ ht hc
    have hb := numbered_bounds _ _ _ _ p hp
    have hmem : p.2 ∈ f.tree.post := by
      rw [← numbered_snd f.lang o.optimise (runTool o true (fs.take a.file)).nextId f.tree.post]
      exact List.mem_map_of_mem hp
    have hpos := hne f (List.mem_of_getElem? hf) p.2 hmem
    have hcount : fileCount o.optimise f = countAll f.lang o.optimise f.tree.post := by
      simp [fileCount, herr]
    have hnext := runTool_take_succ o fs hnd a.file f hf
    exact ⟨f, hf, herr, p, hp, h1, h2, by omega, hb.1, by omega⟩
  refine ⟨?_, ?_, ?_⟩
  · intro a ha
    obtain ⟨_, _, _, _, _, _, _, h, _⟩ := facts a ha
    exact h
  · intro a ha
    obtain ⟨_, _, _, _, _, h1, h2, h3, h4, h5⟩ := facts a ha
    simp only [runCfg]
    omega
  · intro a b ha hb
    obtain ⟨f, hf, _, p, hp, h1, h2, h3, h4, h5⟩ := facts a ha
    obtain ⟨g, hg, _, q, hq, k1, k2, k3, k4, k5⟩ := facts b hb
    by_cases hfile : a.file = b.file
    · have hfg : f = g := by
        rw [hfile, hg] at hf
        simpa using hf.symm
      subst hfg
      rw [← hfile] at hq k1 k4 k5
      rcases numbered_disjoint _ _ _ _ p hp q hq with rfl | h | h
      · left
        obtain ⟨af, ak, am⟩ := a
        obtain ⟨bf, bk, bm⟩ := b
        simp_all
      · right
        intro x hx
        simp only [RecCall.covers, runCfg, ← hfile] at hx
        omega
      · right
        intro x hx
        simp only [RecCall.covers, runCfg, ← hfile] at hx
        omega
    · right
      intro x hx
      simp only [RecCall.covers, runCfg] at hx
      rcases Nat.lt_or_ge a.file b.file with h | h
      · have := runTool_take_mono o fs (a.file + 1) b.file (by omega)
        omega
      · have := runTool_take_mono o fs (b.file + 1) a.file (by omega)
        omega

/-! ### Groups without mutants -/

/-- `1 << 0`, optimised, in C++: a point that offers no mutant but is
instrumented. -/
def emptySite : BinSite := Sample.bin .shl (Sample.intConst 1) (Sample.intConst 0)

/-- The tool does create such points: no instance is reported, and the function
generated in a tracking build records 0 mutants. -/
theorem C20_empty_group_exists (first id : Nat) :
    let a := Mutation.apply Sample.cpp Sample.track first id (.bin emptySite)
    a.group.ids = [] ∧ ∃ fn, a.decls = [fn] ∧ fn.records = [0] := by
  obtain ⟨fn, h1, _, h3⟩ := C45_function Sample.cpp Sample.track first id (.bin emptySite)
    (Or.inr (Or.inr ⟨_, rfl, by decide⟩))
  have hids : (Mutation.apply Sample.cpp Sample.track first id (.bin emptySite)).group.ids = [] := by
    rw [apply_ids]
    have : Mutation.count Sample.cpp true (.bin emptySite) = 0 := by decide +kernel
    show List.range' id (Mutation.count Sample.cpp true (.bin emptySite)) = []
    rw [this]; rfl
  exact ⟨hids, fn, h1, by rw [h3, hids]; rfl⟩

/-- C20 is false with such a point: its local id is that of the next group, so
reaching it marks that group as recorded, and the next group's mutants are never
written although they are reached.  Here group `[0, 2)` is reached after an
empty group. -/
theorem C20_empty_group_false :
    ∃ (c : TrackCfg) (calls : Nat → List RecCall) (sched : List Nat) (s : TrackState),
      c.envSet = true ∧ c.canOpen = true ∧
      TrackState.run c (TrackState.start calls) sched = some s ∧
      s.Finished ∧ (⟨0, 0, 2⟩ : RecCall) ∈ calls 0 ∧ s.log = [] := by
  refine ⟨⟨true, fun _ => 0, fun _ => 2, true, true⟩,
    fun t => if t = 0 then [⟨0, 0, 0⟩, ⟨0, 0, 2⟩] else [], [0, 0],
    (TrackState.run ⟨true, fun _ => 0, fun _ => 2, true, true⟩ (TrackState.start
      fun t => if t = 0 then [⟨0, 0, 0⟩, ⟨0, 0, 2⟩] else []) [0, 0]).get (by decide +kernel),
    rfl, rfl, ?_, ?_, by simp, by decide +kernel⟩
  · rw [Option.some_get]
  · intro t
    by_cases ht : t = 0
    · subst ht; constructor <;> decide +kernel
    · have h1 : ∀ h, ((TrackState.run ⟨true, fun _ => 0, fun _ => 2, true, true⟩ (TrackState.start
          fun t => if t = 0 then [⟨0, 0, 0⟩, ⟨0, 0, 2⟩] else []) [0, 0]).get h).threads t
          = ⟨[], none⟩ := by
        intro h
        simp [TrackState.run, TrackState.step, TrackState.start, TrackState.setThread, ht]
      rw [h1]
      exact ⟨rfl, rfl⟩

/-- C21 is false with such a point at the end of a file: its local id equals the
size of the array. -/
theorem C21_empty_group_false :
    ∃ (c : TrackCfg) (calls : Nat → List RecCall),
      calls 0 = [⟨0, 2, 0⟩] ∧ c.size 0 = 2 ∧
      TrackState.run c (TrackState.start calls) [0] = none :=
  ⟨⟨true, fun _ => 0, fun _ => 2, true, true⟩, fun _ => [⟨0, 2, 0⟩], rfl, rfl, by decide +kernel⟩

/-- In C an unwritable tracking file is undefined behaviour. -/
theorem C20_c_unwritable_false :
    TrackState.run ⟨false, fun _ => 0, fun _ => 2, true, false⟩
      (TrackState.start fun _ => [⟨0, 0, 2⟩]) [0] = none := by
  decide +kernel

/-- Two threads reaching the same and different groups. -/
example : (TrackState.run ⟨true, fun _ => 5, fun _ => 4, true, true⟩
    (TrackState.start fun t => if t = 0 then [⟨0, 0, 2⟩, ⟨0, 2, 2⟩] else [⟨0, 2, 2⟩])
    [0, 1, 0, 1, 0, 0, 1]).map (·.log) = some [5, 7, 6, 8] := by
  decide +kernel

example : Blocks ⟨true, fun _ => 5, fun _ => 4, true, true⟩
    fun a => ∃ t : Nat, a ∈ (if t = 0 then [⟨0, 0, 2⟩, ⟨0, 2, 2⟩] else [⟨0, 2, 2⟩]) := by
  have h : ∀ a : RecCall, (∃ t : Nat, a ∈ (if t = 0 then [⟨0, 0, 2⟩, ⟨0, 2, 2⟩] else [⟨0, 2, 2⟩] :
      List RecCall)) → a = ⟨0, 0, 2⟩ ∨ a = ⟨0, 2, 2⟩ := by
    rintro a ⟨t, h⟩
    split at h <;> simp at h
    · exact h
    · exact Or.inr h
  refine ⟨?_, ?_, ?_⟩
  · intro a ha; rcases h a ha with rfl | rfl <;> decide
  · intro a ha; rcases h a ha with rfl | rfl <;> decide
  · intro a b ha hb
    rcases h a ha with rfl | rfl <;> rcases h b hb with rfl | rfl <;>
      simp [RecCall.covers] <;> omega

/-- The sample files meet the hypotheses of `C20_calls`. -/
example : ∀ m ∈ (Sample.file t!"a.cc" Sample.cpp).tree.post,
    m.count Sample.cpp Sample.track.optimise ≠ 0 := by
  decide +kernel

end Dredd
