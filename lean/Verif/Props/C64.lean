/-
C64: the prelude, read from its text as C or C++, answers and records as claimed.
-/
import Verif.Proofs.PreludeReads
import Verif.Proofs.Devices
import Verif.Props.C63

namespace Dredd

open MiniC PreludeRead

variable {S V R : Type}

theorem answers_bare (f : Fun) (e : Env) (fuel : Nat) (is : List Nat) : ∀ s,
    f.bare.answers e fuel s is = f.answers e fuel s is := by
  induction is with
  | nil => intro s; rfl
  | cons i is ih => intro s; simp only [Fun.answers, Fun.call_bare, ih]

theorem records_bare (f : Fun) (e : Env) (fuel : Nat) (cs : List (Nat × Nat)) : ∀ s,
    f.bare.records e fuel s cs = f.records e fuel s cs := by
  induction cs with
  | nil => intro s; rfl
  | cons c cs ih => intro s; simp only [Fun.records, Fun.call_bare, ih]

theorem device_bare (f : Fun) (e : Env) (fuel : Nat) : device f.bare e fuel = device f e fuel := by
  simp only [device, Fun.call_bare]

/-- C64: for every first id and number of mutants, and whichever macros the compiler defines, the
text of the prelude of a mutating run is read as a program.  If the environment variable lists the
integers `vs`, calls of its function, made by a thread from its start in any number and order, all
return, and tell whether the id is listed. -/
theorem C64_enabled (l : Lang) (o : Options) (ho : o.track = false) (first n : Nat)
    (defined : Text → Bool) (hn : n ≤ 2147483648) :
    ∃ f, readPrelude l.cpp defined (preludeText l o first n) = some f ∧
      f.head = t!"static bool __dredd_enabled_mutation" ∧
      ∀ (e : Env) (vs : List Int), EnvLists (e.getenv t!"DREDD_ENABLED_MUTATION") vs →
        (∀ v ∈ vs, -2147483648 ≤ v - first) →
        ∀ fuel, ((e.getenv t!"DREDD_ENABLED_MUTATION").getD []).length < fuel →
        ∀ is : List Nat, (∀ i ∈ is, i < n) →
          f.answers e fuel f.start is = some (is.map fun (i : Nat) => decide ((first + i : Int) ∈ vs)) := by
  refine ⟨_, prelude_read l o first n defined, ?_, fun e vs h hv fuel hf is his => ?_⟩
  · simp only [preludeFun, ho, enabledFun]
    cases l.cpp <;> rfl
  · rw [Fun.start_bare, answers_bare]
    exact C53_enabled l o ho first n e vs h hv hn fuel hf is his

/-- C64: the same for tracking runs: calls of the function of the program append, for the first call
of each group and for no other, the group's ids, one per line. -/
theorem C64_recorded (l : Lang) (o : Options) (ho : o.track = true) (first n : Nat)
    (defined : Text → Bool) :
    ∃ f, readPrelude l.cpp defined (preludeText l o first n) = some f ∧
      f.head = t!"static void __dredd_record_covered_mutants" ∧
      ∀ (e : Env) (file : Text), e.getenv t!"DREDD_MUTANT_TRACKING_FILE" = some file →
        e.canOpen file = true → ∀ (fuel : Nat) (cs : List (Nat × Nat)),
        (∀ c ∈ cs, c.1 < n ∧ c.2 < fuel ∧ first + c.1 + c.2 ≤ 2147483647) →
        ∃ s, f.records e fuel f.start cs = some s ∧
          s.out = ((firstCalls [] cs).map (reported first)).flatten := by
  refine ⟨_, prelude_read l o first n defined, ?_, fun e file henv hopen fuel cs hcs => ?_⟩
  · simp only [preludeFun, ho, recordFun]
    cases l.cpp <;> rfl
  · simp only [Fun.start_bare, records_bare]
    exact C53_recorded l o ho first n e file henv hopen fuel cs hcs

/-- The variables of a program that represent a state of a mutating prelude. -/
def ReadOk (cpp : Bool) (first n : Nat) (vs : List Int) (s : Store) : Prop :=
  ∃ th, PreludeOk first n vs th ∧ Rep cpp th s

theorem flag_truth (cpp b : Bool) : truth (MiniC.flag cpp b) = some b := by
  cases cpp <;> cases b <;> rfl

/-- C64: the program is what the generated functions rely on (see C18 and C50). -/
theorem C64_faithful (l : Lang) (o : Options) (ho : o.track = false) (first n : Nat)
    (defined : Text → Bool) (f : Fun)
    (hf : readPrelude l.cpp defined (preludeText l o first n) = some f) (hn : n ≤ 2147483648)
    (e : Env) (vs : List Int) (h : EnvLists (e.getenv t!"DREDD_ENABLED_MUTATION") vs)
    (hv : ∀ v ∈ vs, -2147483648 ≤ v - first) (fuel : Nat)
    (hfuel : ((e.getenv t!"DREDD_ENABLED_MUTATION").getD []).length < fuel) :
    ReadOk l.cpp first n vs f.start ∧
    (device f e fuel).Faithful (ReadOk l.cpp first n vs) (fun i => inList vs (first + i)) n := by
  rw [prelude_read] at hf
  cases hf
  rw [device_bare, Fun.start_bare]
  have hfun : preludeFun l o first n = enabledFun l.cpp first n := by simp [preludeFun, ho]
  rw [hfun]
  have hF := mutatingPrelude_faithful l.cpp first n (e.getenv t!"DREDD_ENABLED_MUTATION") vs h hv
  refine ⟨⟨_, .inl rfl, start_rep l.cpp first n⟩, ⟨?_, ?_⟩⟩
  · rintro s i ⟨th, hth, hr⟩ hi
    obtain ⟨th', h1, h2⟩ := hF.query th i hth hi
    have hc := call_enabled l.cpp e fuel first n i s th hfuel hr (by simp [inInt]; omega)
    rw [show e.getenv enabledName = e.getenv t!"DREDD_ENABLED_MUTATION" from rfl] at hc
    simp only [mutatingPrelude] at h1
    split at h1
    · rename_i th'' b heq
      rw [heq] at hc
      obtain ⟨s', v, g1, g2, g3⟩ := hc
      cases h1
      exact ⟨s', by simp [device, g1, g2], th', h2, g3⟩
    · cases h1
  · rintro s ⟨th, hth, hr⟩ hs
    refine hF.some_ th hth ?_
    simp only [device, hr.2.2, flag_truth, decide_eq_false_iff_not, Option.some.injEq] at hs
    simpa [mutatingPrelude] using hs

/-- The variables of a program that represent a state of a tracking prelude. -/
def FlagsOk (n : Nat) (s : Store) : Prop := ∃ fs, s.vars .recorded = .flags fs ∧ fs.length = n

/-- C64: the program of a tracking run is what the generated functions rely on (see C19), if the
file can be opened (in C). -/
theorem C64_records (l : Lang) (o : Options) (ho : o.track = true) (first n : Nat)
    (defined : Text → Bool) (f : Fun)
    (hf : readPrelude l.cpp defined (preludeText l o first n) = some f) (hn : first + n ≤ 2147483647)
    (e : Env)
    (hopen : l.cpp = true ∨ ∀ file, e.getenv t!"DREDD_MUTANT_TRACKING_FILE" = some file →
      e.canOpen file = true) (fuel : Nat) (hfuel : n < fuel) :
    FlagsOk n f.start ∧ (device f e fuel).Records (FlagsOk n) n := by
  rw [prelude_read] at hf
  cases hf
  rw [device_bare, Fun.start_bare]
  have hfun : preludeFun l o first n = recordFun l.cpp first n := by simp [preludeFun, ho]
  rw [hfun]
  constructor
  · exact ⟨List.replicate n false, by cases l.cpp <;> rfl, by simp⟩
  · rintro s i k ⟨fs, hfs, hlen⟩ hi hk
    have hc := call_record l.cpp e fuel first n i k s fs (by omega) (by omega) hfs
    have fin : ∀ fs' : List Bool, fs'.length = n →
        (∃ s', Returns ((recordFun l.cpp first n).call e fuel [i, k] s) s' ∧
          s'.vars .recorded = .flags fs') →
        ∃ d', (device (recordFun l.cpp first n) e fuel).record i k s = some ((), d') ∧ FlagsOk n d' := by
      rintro fs' hl ⟨s', h1, h2⟩
      refine ⟨s', ?_, fs', h2, hl⟩
      simp only [device]
      rcases h1 with h1 | h1 <;> simp [h1]
    rw [List.getElem?_eq_getElem (by omega)] at hc
    cases hb : fs[i]'(by omega) with
    | true =>
      simp only [hb] at hc
      obtain ⟨s', h1, h2, -⟩ := hc
      exact fin fs hlen ⟨s', h1, h2⟩
    | false =>
      simp only [hb] at hc
      cases hg : e.getenv trackName with
      | none =>
        simp only [hg] at hc
        obtain ⟨s', h1, h2, -⟩ := hc
        exact fin _ (by simpa using hlen) ⟨s', h1, h2⟩
      | some file =>
        simp only [hg] at hc
        split at hc
        · obtain ⟨s', h1, h2, -⟩ := hc
          exact fin _ (by simpa using hlen) ⟨s', h1, h2⟩
        · rename_i hno
          rcases hopen with hl | hopen
          · simp only [hl, if_true] at hc
            rw [← hl] at hc
            obtain ⟨s', h1, h2, -⟩ := hc
            exact fin _ (by simpa using hlen) ⟨s', h1, h2⟩
          · exact absurd (hopen file hg) hno

/-! ### Threads -/

theorem enabled_own (cpp : Bool) (first n : Nat) :
    sharedVar (enabledFun cpp first n).bare .initialized = false ∧
    sharedVar (enabledFun cpp first n).bare .bitset = false ∧
    sharedVar (enabledFun cpp first n).bare .globalSome = false := by
  cases cpp <;> exact ⟨rfl, rfl, rfl⟩

theorem record_shared (cpp : Bool) (first n : Nat) :
    sharedVar (recordFun cpp first n).bare .recorded = true := by
  cases cpp <;> rfl

/-- C64: calls made by any number of threads, in any order: the answers do not depend on which
thread asks. -/
theorem C64_threads (l : Lang) (o : Options) (ho : o.track = false) (first n : Nat)
    (defined : Text → Bool) (hn : n ≤ 2147483648) :
    ∃ f, readPrelude l.cpp defined (preludeText l o first n) = some f ∧
      ∀ (e : Env) (vs : List Int), EnvLists (e.getenv t!"DREDD_ENABLED_MUTATION") vs →
        (∀ v ∈ vs, -2147483648 ≤ v - first) →
        ∀ fuel, ((e.getenv t!"DREDD_ENABLED_MUTATION").getD []).length < fuel →
        ∀ cs : List (Nat × Nat), (∀ c ∈ cs, c.2 < n) →
          threadAnswers f e fuel (fun _ => f.start) cs =
            some (cs.map fun c => decide ((first + c.2 : Int) ∈ vs)) := by
  refine ⟨_, prelude_read l o first n defined, fun e vs h hv fuel hf cs hcs => ?_⟩
  obtain ⟨h1, h2⟩ := C64_faithful l o ho first n defined _ (prelude_read l o first n defined) hn e vs h hv fuel hf
  have hfun : preludeFun l o first n = enabledFun l.cpp first n := by simp [preludeFun, ho]
  obtain ⟨g1, g2, g3⟩ := enabled_own l.cpp first n
  rw [hfun] at h1 h2 ⊢
  have key : ∀ (cs : List (Nat × Nat)) (ths : Nat → Store), (∀ c ∈ cs, c.2 < n) →
      (∀ u, ReadOk l.cpp first n vs (ths u)) →
      threadAnswers (enabledFun l.cpp first n).bare e fuel ths cs =
        some (cs.map fun c => decide ((first + c.2 : Int) ∈ vs)) := by
    intro cs
    induction cs with
    | nil => intros; rfl
    | cons c cs ih =>
      intro ths hcs hths
      obtain ⟨t, i⟩ := c
      obtain ⟨s', h3, h4⟩ := h2.query (ths t) i (hths t) (hcs (t, i) (by simp))
      simp only [device] at h3
      split at h3
      · rename_i s v hc
        cases hv : truth v with
        | none => simp [hv] at h3
        | some b =>
          simp only [hv, Option.map_some, Option.some.injEq, Prod.mk.injEq] at h3
          obtain ⟨rfl, rfl⟩ := h3
          simp only [threadAnswers, hc, hv, Option.bind_some]
          rw [ih (shareAll _ ths t s) (fun c hc => hcs c (by simp [hc])) ?_]
          · rfl
          · intro u
            unfold shareAll
            split
            · exact h4
            · obtain ⟨th, k1, k2, k3, k4⟩ := hths u
              exact ⟨th, k1, by simp [g1, k2], by simp [g2, k3], by simp [g3, k4]⟩
      · cases h3
  exact key cs _ hcs (fun _ => h1)

/-- C64: groups are recorded once, whichever threads reach them. -/
theorem C64_threads_recorded (l : Lang) (o : Options) (ho : o.track = true) (first n : Nat)
    (defined : Text → Bool) :
    ∃ f, readPrelude l.cpp defined (preludeText l o first n) = some f ∧
      ∀ (e : Env) (file : Text), e.getenv t!"DREDD_MUTANT_TRACKING_FILE" = some file →
        e.canOpen file = true → ∀ (fuel : Nat) (cs : List (Nat × Nat × Nat)),
        (∀ c ∈ cs, c.2.1 < n ∧ c.2.2 < fuel ∧ first + c.2.1 + c.2.2 ≤ 2147483647) →
        threadRecords f e fuel (fun _ => f.start) cs =
          some ((firstCalls [] (cs.map (·.2))).map (reported first)).flatten := by
  refine ⟨_, prelude_read l o first n defined, fun e file henv hopen fuel cs hcs => ?_⟩
  have hfun : preludeFun l o first n = recordFun l.cpp first n := by simp [preludeFun, ho]
  rw [hfun]
  have hsh := record_shared l.cpp first n
  have key : ∀ (cs : List (Nat × Nat × Nat)) (ths : Nat → Store) (out : Text) (seen : List Nat) (fs : List Bool),
      (∀ c ∈ cs, c.2.1 < n ∧ c.2.2 < fuel ∧ first + c.2.1 + c.2.2 ≤ 2147483647) → fs.length = n →
      (∀ u, (ths u).vars .recorded = .flags fs ∧ (ths u).out = out) →
      (∀ k, k < n → fs[k]? = some (decide (k ∈ seen))) →
      threadRecords (recordFun l.cpp first n).bare e fuel ths cs =
        some (out ++ ((firstCalls seen (cs.map (·.2))).map (reported first)).flatten) := by
    intro cs
    induction cs with
    | nil => intro ths out seen fs _ _ h _; simp [threadRecords, firstCalls, (h 0).2]
    | cons c cs ih =>
      intro ths out seen fs hcs hlen hfs hseen
      obtain ⟨t, k, m⟩ := c
      obtain ⟨hk, hm, hint⟩ := hcs (t, k, m) (by simp)
      have hrest : ∀ c ∈ cs, c.2.1 < n ∧ c.2.2 < fuel ∧ first + c.2.1 + c.2.2 ≤ 2147483647 :=
        fun c hc => hcs c (by simp [hc])
      have hcall := call_record l.cpp e fuel first n k m (ths t) fs hint hm (hfs t).1
      have step : ∀ (s' : Store) (fs' : List Bool), Returns ((recordFun l.cpp first n).call e fuel [k, m] (ths t)) s' →
          s'.vars .recorded = .flags fs' →
          threadRecords (recordFun l.cpp first n).bare e fuel ths ((t, k, m) :: cs) =
            threadRecords (recordFun l.cpp first n).bare e fuel (shareAll (recordFun l.cpp first n).bare ths t s') cs ∧
          ∀ u, (shareAll (recordFun l.cpp first n).bare ths t s' u).vars .recorded = .flags fs' ∧
            (shareAll (recordFun l.cpp first n).bare ths t s' u).out = s'.out := by
        intro s' fs' h1 h2
        refine ⟨?_, fun u => ?_⟩
        · rcases h1 with h1 | h1 <;> simp only [threadRecords, Fun.call_bare, h1]
        · unfold shareAll
          split
          · exact ⟨h2, rfl⟩
          · exact ⟨by simp [hsh, h2], rfl⟩
      rw [hseen k hk] at hcall
      by_cases hin : k ∈ seen
      · simp only [hin, decide_true] at hcall
        obtain ⟨s', h1, h2, h3⟩ := hcall
        obtain ⟨h4, h5⟩ := step s' fs h1 h2
        rw [h4, ih _ s'.out seen fs hrest hlen h5 hseen, h3, (hfs t).2]
        simp [firstCalls, hin]
      · simp only [hin, decide_false, show e.getenv trackName = some file from henv, hopen,
          if_true] at hcall
        obtain ⟨s', h1, h2, h3⟩ := hcall
        obtain ⟨h4, h5⟩ := step s' _ h1 h2
        rw [h4, ih _ s'.out (k :: seen) (fs.set k true) hrest (by simpa using hlen) h5 (by
          intro j hj
          rw [List.getElem?_set]
          by_cases hjk : k = j
          · subst hjk; simp [hlen, hk]
          · rw [if_neg hjk, hseen j hj]
            simp [List.mem_cons, Ne.symm hjk]), h3, (hfs t).2, idLines_eq]
        simp [firstCalls, hin, reported]
  have hstart : (recordFun l.cpp first n).start.vars .recorded = .flags (List.replicate n false) := by
    cases l.cpp <;> rfl
  have hout : (recordFun l.cpp first n).start.out = [] := by cases l.cpp <;> rfl
  have := key cs (fun _ => (recordFun l.cpp first n).bare.start) [] [] (List.replicate n false) hcs (by simp)
    (fun _ => by rw [Fun.start_bare]; exact ⟨hstart, hout⟩) (by intro k hk; simp [hk])
  simpa using this

/-! ### Whole files -/

/-- The output as in C63, with the program `p` that the prelude in it is read as. -/
structure OutputRead (o : Options) (req : Bool) (first : Nat) (f : SourceFile) (out pre : Text)
    (G : Grammar) (defined : Text → Bool) (p : Fun) (fs : List CFn) (t : Tree) : Prop where
  rest : OutputIs o req first f out pre G fs t
  prelude : readPrelude f.lang.cpp defined
    (preludeText f.lang o first ((handleTU o req first f).nextId - first)) = some p

/-- C64: the output text as a whole, prelude, generated functions and program being read from the
text.  If the environment variable lists the integers `vs`, the output behaves as the mutant in
which the listed mutants are enabled. -/
theorem C64_mutant (o : Options) (req : Bool) (first : Nat) (f : SourceFile) (out pre : Text)
    (G : Grammar) (x : Syn) (E : Elab S V R) (M : Machine S V) (P : Prog S V)
    (h : Mutated o req first f out pre G x E M P) (ho : o.track = false) (n : Nat)
    (hnext : (handleTU o req first f).nextId = first + n) (hn : n ≤ 2147483648) (defined : Text → Bool)
    (vs : List Int) (hv : ∀ v ∈ vs, -2147483648 ≤ v - first)
    (hP : P.All (fileSites f.lang o M first n (Interp.mutant f.lang o M (inList vs) first) P)) :
    ∃ (p : Fun) (fs : List CFn) (t : Tree), OutputRead o req first f out pre G defined p fs t ∧
      ∀ (e : Env) (fuel : Nat) (K : (Nat → List V → Comp (S × Store) V) → Nat → Sem (S × Store) V R),
        EnvLists (e.getenv t!"DREDD_ENABLED_MUTATION") vs →
        ((e.getenv t!"DREDD_ENABLED_MUTATION").getD []).length < fuel →
        Sound K E M (device p e fuel) fs f.lang o first →
        ∃ Ok : Store → Prop, Ok p.start ∧
          ∀ k g vals, Sim Ok True (P.call (Interp.mutant f.lang o M (inList vs) first) k g vals)
            (t.run K P (Interp.instrumented f.lang o M (device p e fuel) first) k g vals) := by
  obtain ⟨fs, t, h1, h2⟩ := C63_mutant o req first f out pre G x E M P h ho n (inList vs) hP
  have hp := prelude_read f.lang o first ((handleTU o req first f).nextId - first) defined
  refine ⟨_, fs, t, ⟨h1, hp⟩, fun e fuel K henv hfuel hK => ?_⟩
  rw [show (handleTU o req first f).nextId - first = n by omega] at hp hK ⊢
  obtain ⟨h3, h4⟩ := C64_faithful f.lang o ho first n defined _ hp hn e vs henv hv fuel hfuel
  exact ⟨_, h3, fun k g vals => h2 Store _ K _ hK h4 k g vals⟩

/-- C64: if none of the file's mutants is listed, or the variable is not set, the output text behaves
as the original program. -/
theorem C64_original (o : Options) (req : Bool) (first : Nat) (f : SourceFile) (out pre : Text)
    (G : Grammar) (x : Syn) (E : Elab S V R) (M : Machine S V) (P : Prog S V)
    (h : Mutated o req first f out pre G x E M P) (ho : o.track = false) (n : Nat)
    (hnext : (handleTU o req first f).nextId = first + n) (hn : n ≤ 2147483648) (defined : Text → Bool)
    (all : Prop) (hP : P.All (originalSites f.lang o M first n all P)) :
    ∃ (p : Fun) (fs : List CFn) (t : Tree), OutputRead o req first f out pre G defined p fs t ∧
      ∀ (e : Env) (vs : List Int) (fuel : Nat)
        (K : (Nat → List V → Comp (S × Store) V) → Nat → Sem (S × Store) V R),
        EnvLists (e.getenv t!"DREDD_ENABLED_MUTATION") vs → (∀ v ∈ vs, -2147483648 ≤ v - first) →
        (∀ v ∈ vs, v < first ∨ first + n ≤ v) →
        ((e.getenv t!"DREDD_ENABLED_MUTATION").getD []).length < fuel →
        Sound K E M (device p e fuel) fs f.lang o first →
        ∃ Ok : Store → Prop, Ok p.start ∧
          ∀ k g vals, Sim Ok all (P.call (Interp.original f.lang M) k g vals)
            (t.run K P (Interp.instrumented f.lang o M (device p e fuel) first) k g vals) := by
  obtain ⟨fs, t, h1, h2⟩ := C63_original o req first f out pre G x E M P h ho n all hP
  have hp := prelude_read f.lang o first ((handleTU o req first f).nextId - first) defined
  refine ⟨_, fs, t, ⟨h1, hp⟩, fun e vs fuel K henv hv hno hfuel hK => ?_⟩
  rw [show (handleTU o req first f).nextId - first = n by omega] at hp hK ⊢
  obtain ⟨h3, h4⟩ := C64_faithful f.lang o ho first n defined _ hp hn e vs henv hv fuel hfuel
  refine ⟨_, h3, fun k g vals => h2 Store _ K _ (inList vs) hK h4 ?_ k g vals⟩
  intro i h5 h6
  simp only [inList, decide_eq_false_iff_not]
  intro hm
  have := hno _ hm
  omega

/-- C64: the output text of a tracking run, read in the same way, behaves as the output text of a
mutating run for the same file in which no mutant of the file is listed, under the condition of C19
(groups have mutants). -/
theorem C64_tracking (o o' : Options) (req req' : Bool) (first : Nat) (f : SourceFile)
    (out out' pre : Text) (G : Grammar) (x : Syn) (E : Elab S V R) (M : Machine S V) (P : Prog S V)
    (h : Mutated o req first f out pre G x E M P) (h' : Mutated o' req' first f out' pre G x E M P)
    (ho : o.track = true) (ho' : o'.track = false) (hopt : o'.optimise = o.optimise) (n : Nat)
    (hnext : (handleTU o req first f).nextId = first + n)
    (hnext' : (handleTU o' req' first f).nextId = first + n) (hn : first + n ≤ 2147483647)
    (defined : Text → Bool)
    (hP : P.All (trackSites f.lang o M first n (Interp.mutant f.lang o' M (fun _ => false) first) P)) :
    ∃ (p p' : Fun) (fs fs' : List CFn) (t t' : Tree),
      OutputRead o req first f out pre G defined p fs t ∧
      OutputRead o' req' first f out' pre G defined p' fs' t' ∧
      ∀ (e : Env) (vs : List Int) (fuel : Nat)
        (K K' : (Nat → List V → Comp (S × Store) V) → Nat → Sem (S × Store) V R),
        (f.lang.cpp = true ∨ ∀ file, e.getenv t!"DREDD_MUTANT_TRACKING_FILE" = some file →
          e.canOpen file = true) →
        EnvLists (e.getenv t!"DREDD_ENABLED_MUTATION") vs → (∀ v ∈ vs, -2147483648 ≤ v - first) →
        (∀ v ∈ vs, v < first ∨ first + n ≤ v) → n < fuel →
        ((e.getenv t!"DREDD_ENABLED_MUTATION").getD []).length < fuel →
        Sound K E M (device p e fuel) fs f.lang o first →
        Sound K' E M (device p' e fuel) fs' f.lang o' first →
        ∃ Ok Ok' : Store → Prop, Ok p.start ∧ Ok' p'.start ∧
          ∀ k g vals s d d', Ok d → Ok' d' →
            (∀ r, t.run K P (Interp.instrumented f.lang o M (device p e fuel) first) k g vals (s, d) r →
              ∃ r', t'.run K' P (Interp.instrumented f.lang o' M (device p' e fuel) first) k g vals
                (s, d') r' ∧ r.Same r') ∧
            (∀ r', t'.run K' P (Interp.instrumented f.lang o' M (device p' e fuel) first) k g vals
                (s, d') r' →
              ∃ r, t.run K P (Interp.instrumented f.lang o M (device p e fuel) first) k g vals
                (s, d) r ∧ r'.Same r) := by
  obtain ⟨fs, fs', t, t', h1, h1', h2⟩ :=
    C63_tracking o o' req req' first f out out' pre G x E M P h h' ho ho' hopt n hP
  have hp := prelude_read f.lang o first ((handleTU o req first f).nextId - first) defined
  have hp' := prelude_read f.lang o' first ((handleTU o' req' first f).nextId - first) defined
  refine ⟨_, _, fs, fs', t, t', ⟨h1, hp⟩, ⟨h1', hp'⟩, fun e vs fuel K K' hopen henv hv hno hfn hfuel hK hK' => ?_⟩
  rw [show (handleTU o req first f).nextId - first = n by omega] at hp hK ⊢
  rw [show (handleTU o' req' first f).nextId - first = n by omega] at hp' hK' ⊢
  obtain ⟨h3, h4⟩ := C64_records f.lang o ho first n defined _ hp hn e hopen fuel hfn
  obtain ⟨h5, h6⟩ := C64_faithful f.lang o' ho' first n defined _ hp' (by omega) e vs henv hv fuel hfuel
  refine ⟨_, _, h3, h5, fun k g vals s d d' hd hd' =>
    h2 Store Store _ _ K K' _ _ (inList vs) hK hK' h4 h6 ?_ k g vals s d d' hd hd'⟩
  intro i h7 h8
  simp only [inList, decide_eq_false_iff_not]
  intro hm
  have := hno _ hm
  omega

/-! ### Examples -/

/-- The hypotheses can be met: the output for `void f(){a(); x=-b;}`, with `12,30` in the
environment variable. -/
example : ∃ (out : Text) (p : Fun) (fs : List CFn) (t : Tree),
    (handleTU Sample.opts true 5 Sample.funFile).output = some out ∧
    OutputRead Sample.opts true 5 Sample.funFile out t!"// f\n" (cGrammar true) (fun _ => false) p fs t ∧
    let e : Env := ⟨fun _ => some t!"12,30", fun _ => false⟩
    ∃ Ok : Store → Prop, Ok p.start ∧ ∀ k, Sim Ok True
      (Sample.funProg.call (Interp.mutant Sample.cpp Sample.opts (Sample.machine .cppOld) (inList [12, 30]) 5) k 0 [])
      (t.run (Sample.funSem Sample.opts (device p e 9) fs) Sample.funProg
        (Interp.instrumented Sample.cpp Sample.opts (Sample.machine .cppOld) (device p e 9) 5) k 0 []) := by
  obtain ⟨out, h⟩ := Sample.funFile_mutated Sample.opts (.inl rfl)
  obtain ⟨p, fs, t, h1, h2⟩ := C64_mutant Sample.opts true 5 Sample.funFile out _ _ _ _ _ _ h rfl 26 rfl
    (by decide) (fun _ => false) [12, 30] (by decide) (by
    intro g
    unfold Sample.funProg
    dsimp only
    split
    · refine ⟨⟨⟨by decide, by decide⟩, fun i => i.elim0⟩, ⟨⟨by decide, by decide⟩, ?_⟩, trivial⟩
      exact ⟨⟨by decide, by decide, fun h => by cases h⟩, trivial, ⟨by decide, by decide⟩, ⟨by decide, by decide⟩,
        ⟨by decide, by decide⟩, trivial⟩
    · trivial)
  refine ⟨out, p, fs, t, h.output, h1, ?_⟩
  have henv : EnvLists (some t!"12,30") [12, 30] :=
    .inr ⟨[t!"12", t!"30"], by decide, rfl,
      .num ⟨[], t!"12", by simp, by decide, by decide, .inl ⟨rfl, by decide⟩⟩ (by decide) (by decide)
      (.num ⟨[], t!"30", by simp, by decide, by decide, .inl ⟨rfl, by decide⟩⟩ (by decide) (by decide) .nil)⟩
  obtain ⟨Ok, h3, h4⟩ := h2 ⟨fun _ => some t!"12,30", fun _ => false⟩ 9 _ henv (by decide)
    (Sample.funSem_sound _ _ fs h1.rest.names)
  exact ⟨Ok, h3, fun k => h4 k 0 []⟩

/-- And for tracking, the environment naming no tracking file and no mutant. -/
example : ∃ (p p' : Fun) (fs fs' : List CFn) (t t' : Tree),
    let e : Env := ⟨fun _ => none, fun _ => false⟩
    ∃ Ok Ok' : Store → Prop, Ok p.start ∧ Ok' p'.start ∧ ∀ k s d d', Ok d → Ok' d' →
      ∀ r, t.run (Sample.funSem Sample.track (device p e 99) fs) Sample.funProg
          (Interp.instrumented Sample.cpp Sample.track (Sample.machine .cppOld) (device p e 99) 5) k 0 [] (s, d) r →
        ∃ r', t'.run (Sample.funSem Sample.opts (device p' e 99) fs') Sample.funProg
          (Interp.instrumented Sample.cpp Sample.opts (Sample.machine .cppOld) (device p' e 99) 5) k 0 [] (s, d') r' ∧
          r.Same r' := by
  obtain ⟨out, h⟩ := Sample.funFile_mutated Sample.track (.inr rfl)
  obtain ⟨out', h'⟩ := Sample.funFile_mutated Sample.opts (.inl rfl)
  obtain ⟨p, p', fs, fs', t, t', h1, h1', h2⟩ := C64_tracking Sample.track Sample.opts true true 5
    Sample.funFile out out' _ _ _ _ _ _ h h' rfl rfl rfl 26 rfl rfl (by decide) (fun _ => false) (by
    intro g
    unfold Sample.funProg
    dsimp only
    split
    · refine ⟨⟨⟨by decide, by decide⟩, fun i => i.elim0⟩, ⟨⟨by decide, by decide⟩, ?_⟩, trivial⟩
      exact ⟨⟨by decide, by decide, by decide, fun h => by cases h⟩, trivial,
        ⟨by decide, by decide, by decide⟩, ⟨by decide, by decide, by decide⟩,
        ⟨by decide, by decide, by decide⟩, trivial⟩
    · trivial)
  obtain ⟨Ok, Ok', h3, h4, h5⟩ := h2 ⟨fun _ => none, fun _ => false⟩ [] 99 _ _ (.inl rfl) (.inl ⟨rfl, rfl⟩)
    (by simp) (by simp) (by decide) (by decide)
    (Sample.funSem_sound _ _ fs h1.rest.names) (Sample.funSem_sound _ _ fs' h1'.rest.names)
  exact ⟨p, p', fs, fs', t, t', Ok, Ok', h3, h4, fun k s d d' hd hd' => (h5 k 0 [] s d d' hd hd').1⟩

/-- Two threads ask in turn; `12` is listed. -/
example : ∃ f, readPrelude false (fun _ => false) (preludeText ⟨false, false, false, false⟩ Sample.opts 5 26) = some f ∧
    threadAnswers f ⟨fun _ => some t!"12", fun _ => false⟩ 3 (fun _ => f.start) [(1, 7), (2, 6), (2, 7), (1, 8)] =
      some [true, false, true, false] := by
  obtain ⟨f, h1, h2⟩ := C64_threads ⟨false, false, false, false⟩ Sample.opts rfl 5 26 (fun _ => false) (by decide)
  exact ⟨f, h1, h2 ⟨fun _ => some t!"12", fun _ => false⟩ [12] (.inr ⟨[t!"12"], by decide, rfl,
    .num ⟨[], t!"12", by simp, by decide, by decide, .inl ⟨rfl, by decide⟩⟩ (by decide) (by decide) .nil⟩)
    (by decide) 3 (by decide) [(1, 7), (2, 6), (2, 7), (1, 8)] (by decide)⟩

/-- Reading is not a formality: in C, `thread_local` needs `threads.h`. -/
example : readPrelude false (fun _ => false)
    t!"static thread_local int __dredd_some_mutation_enabled = 1;\nstatic bool f(int i) { return i; }\n" = none := by
  decide +kernel

/-- Precedence matters to the reader: comparison binds more tightly than `&`. -/
example : (toks t!"a & 1 << b != 0").bind (readCond 50) =
    some (.bin t!"&" (.name [t!"a"]) (.bin t!"!=" (.bin t!"<<" (.num 1) (.name [t!"b"])) (.num 0)), []) := by
  with_unfolding_all rfl

end Dredd
