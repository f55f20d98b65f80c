/-
C53: the text of the preludes, read as C or C++, answers and records as claimed.
The text is the printed form of a program in a small fragment of the language
(`Model/MiniC.lean`), and the properties of the program are proved for that
program.
-/
import Verif.Proofs.PreludeLines
import Verif.Proofs.PreludeCall
import Verif.Proofs.TrackCall
import Verif.Proofs.Prelude

namespace Dredd

open MiniC

/-- The text before the functions of a prelude: comment, headers, and, in the
regular preludes, the definition of `thread_local`. -/
def beforeFunctions (l : Lang) (o : Options) : Text :=
  preludeStart ++ (if l.cpp then headersCpp else headersC) ++
    (if o.track then t!"\n" else if l.cpp then macrosCpp else macrosC)

/-- The program in the prelude. -/
def preludeFun (l : Lang) (o : Options) (first n : Nat) : Fun :=
  if o.track then recordFun l.cpp first n else enabledFun l.cpp first n

/-- C53: the prelude is a fixed text followed by the printed program, for every
first id and number of mutants. -/
theorem C53_text (l : Lang) (o : Options) (first n : Nat) :
    preludeText l o first n = beforeFunctions l o ++ (preludeFun l o first n).lines.flatten := by
  unfold preludeText beforeFunctions preludeFun recordFun enabledFun
  cases l.cpp <;> cases o.track <;>
    simp only [Bool.false_eq_true, if_false, if_true, regularPreludeCpp_eq, regularPreludeC_eq,
      trackingPreludeCpp_eq, trackingPreludeC_eq, List.append_assoc]

/-- All variables. -/
def MiniC.allVars : List Var :=
  [.localId, .numMutations, .initialized, .bitset, .globalSome, .some_, .envVar,
    .contents, .pos, .token, .value, .localValue, .temp, .recorded, .trackVar, .outputFile, .fp, .i,
    .strtokPos]

/-- Different variables have different names, so the printed program refers to
the variables it should (the last one is no variable of the program). -/
theorem C53_names (x y : Var) (h : x.name = y.name) : x = y := by
  revert x y
  have : ∀ x ∈ allVars, ∀ y ∈ allVars, x.name = y.name → x = y := by decide +kernel
  intro x y h
  exact this x (by cases x <;> decide) y (by cases y <;> decide) h

/-- The truth values of the results of calls, one after the other; `none` if one
of them does not return. -/
def MiniC.Fun.answers (f : Fun) (e : Env) (fuel : Nat) : Store → List Nat → Option (List Bool)
  | _, [] => some []
  | s, i :: is =>
    match f.call e fuel [i] s with
    | .ret s' v => (truth v).bind fun b => (Fun.answers f e fuel s' is).map (b :: ·)
    | _ => none

/-- C53: if the environment variable lists the integers `vs`, the calls of
`__dredd_enabled_mutation` in the printed program, made by a thread from its
start in any number and order, all return, and tell whether the id is listed.
`fuel` bounds the rounds of the parsing loop: any bound above the length of the
variable's value does. -/
theorem C53_enabled (l : Lang) (o : Options) (ho : o.track = false) (first n : Nat) (e : Env)
    (vs : List Int) (h : EnvLists (e.getenv t!"DREDD_ENABLED_MUTATION") vs)
    (hv : ∀ v ∈ vs, -2147483648 ≤ v - first) (hn : n ≤ 2147483648)
    (fuel : Nat) (hf : ((e.getenv t!"DREDD_ENABLED_MUTATION").getD []).length < fuel)
    (is : List Nat) (his : ∀ i ∈ is, i < n) :
    (preludeFun l o first n).answers e fuel (preludeFun l o first n).start is
      = some (is.map fun (i : Nat) => decide ((first + i : Int) ∈ vs)) := by
  have hfun : preludeFun l o first n = enabledFun l.cpp first n := by simp [preludeFun, ho]
  rw [hfun]
  generalize l.cpp = cpp
  have hint : ∀ i, i < n → inInt (i : Int) = true := by
    intro i hi; simp [inInt]; omega
  have later : ∀ (is : List Nat) (s : Store) (th : Thread), (∀ i ∈ is, i < n) →
      Decided first n vs th → Rep cpp th s →
      (enabledFun cpp first n).answers e fuel s is =
        some (is.map fun (i : Nat) => decide ((first + i : Int) ∈ vs)) := by
    intro is
    induction is with
    | nil => intros; rfl
    | cons i is ih =>
      intro s th hlt hd hr
      have hi := hlt i (by simp)
      have hc := call_enabled cpp e fuel first n i s th hf hr (hint i hi)
      rw [query_decided cpp first n _ vs th hd i hi] at hc
      obtain ⟨s', v, h1, h2, h3⟩ := hc
      simp only [Fun.answers, h1, h2, Option.bind_some]
      rw [ih s' th (fun j hj => hlt j (by simp [hj])) hd h3]
      rfl
  cases is with
  | nil => rfl
  | cons i is =>
    have hi := his i (by simp)
    obtain ⟨th, h1, h2⟩ := query_start cpp first n _ vs h hv i hi
    have hc := call_enabled cpp e fuel first n i _ _ hf (start_rep cpp first n) (hint i hi)
    rw [show e.getenv enabledName = e.getenv t!"DREDD_ENABLED_MUTATION" from rfl, h1] at hc
    obtain ⟨s', v, g1, g2, g3⟩ := hc
    simp only [Fun.answers, g1, g2, Option.bind_some]
    rw [later is s' th (fun j hj => his j (by simp [hj])) h2 g3]
    rfl

/-- Calls of the recorder, one after the other. -/
def MiniC.Fun.records (f : Fun) (e : Env) (fuel : Nat) : Store → List (Nat × Nat) → Option Store
  | s, [] => some s
  | s, (k, m) :: cs =>
    match f.call e fuel [k, m] s with
    | .next s' => Fun.records f e fuel s' cs
    | .ret s' _ => Fun.records f e fuel s' cs
    | _ => none

/-- The first call for each group, given the groups `seen` already. -/
def firstCalls (seen : List Nat) : List (Nat × Nat) → List (Nat × Nat)
  | [] => []
  | (k, m) :: cs => if k ∈ seen then firstCalls seen cs else (k, m) :: firstCalls (k :: seen) cs

/-- The ids reported by a call, one per line. -/
def reported (first : Nat) (c : Nat × Nat) : Text :=
  ((List.range c.2).map fun i => natDec (first + c.1 + i) ++ t!"\n").flatten

theorem idLines_eq (m : Nat) : ∀ x, idLines x m =
    ((List.range m).map fun i => natDec (x + i) ++ t!"\n").flatten := by
  induction m with
  | zero => intro x; rfl
  | succ m ih =>
    intro x
    rw [idLines, ih, List.range_succ_eq_map]
    simp only [List.map_cons, List.map_map, List.flatten_cons, Nat.add_zero]
    congr 3
    funext i
    simp only [Function.comp, Nat.succ_eq_add_one]
    rw [show x + 1 + i = x + (i + 1) by omega]

/-- C53: with the environment variable naming a file that can be opened, calls of
`__dredd_record_covered_mutants` in the printed program append, for the first
call of each group and for no other, the group's ids, one per line. -/
theorem C53_recorded (l : Lang) (o : Options) (ho : o.track = true) (first n : Nat) (e : Env)
    (file : Text) (henv : e.getenv t!"DREDD_MUTANT_TRACKING_FILE" = some file)
    (hopen : e.canOpen file = true) (fuel : Nat) (cs : List (Nat × Nat))
    (hcs : ∀ c ∈ cs, c.1 < n ∧ c.2 < fuel ∧ first + c.1 + c.2 ≤ 2147483647) :
    ∃ s, (preludeFun l o first n).records e fuel (preludeFun l o first n).start cs = some s ∧
      s.out = ((firstCalls [] cs).map (reported first)).flatten := by
  have hfun : preludeFun l o first n = recordFun l.cpp first n := by simp [preludeFun, ho]
  rw [hfun]
  generalize l.cpp = cpp
  have key : ∀ (cs : List (Nat × Nat)) (s : Store) (seen : List Nat) (fs : List Bool),
      (∀ c ∈ cs, c.1 < n ∧ c.2 < fuel ∧ first + c.1 + c.2 ≤ 2147483647) → fs.length = n →
      s.vars .recorded = .flags fs → (∀ k, k < n → fs[k]? = some (decide (k ∈ seen))) →
      ∃ s', (recordFun cpp first n).records e fuel s cs = some s' ∧
        s'.out = s.out ++ ((firstCalls seen cs).map (reported first)).flatten := by
    intro cs
    induction cs with
    | nil => intro s seen fs _ _ _ _; exact ⟨s, rfl, by simp [firstCalls]⟩
    | cons c cs ih =>
      intro s seen fs hcs hlen hfs hseen
      obtain ⟨k, m⟩ := c
      obtain ⟨hk, hm, hint⟩ := hcs (k, m) (by simp)
      have hrest : ∀ c ∈ cs, c.1 < n ∧ c.2 < fuel ∧ first + c.1 + c.2 ≤ 2147483647 :=
        fun c hc => hcs c (by simp [hc])
      have hcall := call_record cpp e fuel first n k m s fs hint hm hfs
      rw [hseen k hk] at hcall
      by_cases hin : k ∈ seen
      · simp only [hin, decide_true] at hcall
        obtain ⟨s', h1, h2, h3⟩ := hcall
        obtain ⟨s'', h4, h5⟩ := ih s' seen fs hrest hlen h2 hseen
        refine ⟨s'', ?_, by rw [h5, h3]; simp [firstCalls, hin]⟩
        rcases h1 with h1 | h1 <;> (simp only [Fun.records, h1]; exact h4)
      · simp only [hin, decide_false, show e.getenv trackName = some file from henv, hopen,
          if_true] at hcall
        obtain ⟨s', h1, h2, h3⟩ := hcall
        obtain ⟨s'', h4, h5⟩ := ih s' (k :: seen) (fs.set k true) hrest (by simpa using hlen) h2 (by
          intro j hj
          rw [List.getElem?_set]
          by_cases hjk : k = j
          · subst hjk; simp [hlen, hk]
          · rw [if_neg hjk, hseen j hj]
            simp [List.mem_cons, Ne.symm hjk])
        refine ⟨s'', ?_, ?_⟩
        · rcases h1 with h1 | h1 <;> (simp only [Fun.records, h1]; exact h4)
        · rw [h5, h3, idLines_eq]
          simp [firstCalls, hin, reported]
  have hstart : (recordFun cpp first n).start.vars .recorded = .flags (List.replicate n false) := by
    cases cpp <;> rfl
  have hout : (recordFun cpp first n).start.out = [] := by cases cpp <;> rfl
  obtain ⟨s, h1, h2⟩ := key cs _ [] (List.replicate n false) hcs (by simp) hstart (by
    intro k hk; simp [hk])
  exact ⟨s, h1, by rw [h2, hout]; rfl⟩

/-- C53: one call of the recorder, made without interruption, is a sequence of
steps of the model on which C20 and C21 are stated, and is undefined exactly if
the model's step is. -/
theorem C53_steps (cpp : Bool) (c : TrackCfg) (e : Env) (fuel : Nat) (st : TrackState) (s : Store)
    (t f k m : Nat) (rest : List RecCall) (hcpp : c.cpp = cpp)
    (henv : c.envSet = (e.getenv t!"DREDD_MUTANT_TRACKING_FILE").isSome)
    (hopen : ∀ file, e.getenv t!"DREDD_MUTANT_TRACKING_FILE" = some file →
      e.canOpen file = c.canOpen)
    (hint : c.first f + k + m ≤ 2147483647) (hf : m < fuel)
    (ht : st.threads t = ⟨⟨f, k, m⟩ :: rest, none⟩) (hr : RepT c f st s) :
    match st.step c t with
    | none => (recordFun cpp (c.first f) (c.size f)).call e fuel [k, m] s = .ub
    | some _ => ∃ N st' s', st.run c (List.replicate N t) = some st' ∧
        st'.threads t = ⟨rest, none⟩ ∧ (∀ u, u ≠ t → st'.threads u = st.threads u) ∧
        (∀ g, g ≠ f → st'.flags g = st.flags g) ∧
        Returns ((recordFun cpp (c.first f) (c.size f)).call e fuel [k, m] s) s' ∧
        RepT c f st' s' :=
  call_track cpp c e fuel st s t f k m rest hcpp henv hopen hint hf ht hr

/-- C53: a call of `__dredd_enabled_mutation` in the printed program does what
the model says on which C09 to C12 are stated, whatever the variable holds:
same answer, same variables afterwards, an exception or undefined behaviour in
the same cases. -/
theorem C53_calls (cpp : Bool) (e : Env) (fuel first n i : Nat) (s : Store) (th : Thread)
    (hf : ((e.getenv t!"DREDD_ENABLED_MUTATION").getD []).length < fuel) (hr : Rep cpp th s)
    (hi : i ≤ 2147483647) :
    Answers cpp ((enabledFun cpp first n).call e fuel [i] s)
      (enabledMutation cpp first n (e.getenv t!"DREDD_ENABLED_MUTATION") th i) :=
  call_enabled cpp e fuel first n i s th hf hr (by simp [inInt]; omega)

/-- The hypotheses are met: two files' worth of ids, and a trailing comma. -/
example : (enabledFun true 10 70).answers ⟨fun _ => some t!"12,79,5,", fun _ => true⟩ 20
    (enabledFun true 10 70).start [0, 2, 69, 2] = some [false, true, true, true] := by decide +kernel

example : (enabledFun false 10 70).answers ⟨fun _ => some t!"12,,79,5", fun _ => true⟩ 20
    (enabledFun false 10 70).start [0, 2, 69, 2] = some [false, true, true, true] := by decide +kernel

example : ((recordFun false 10 5).records ⟨fun _ => some t!"f", fun _ => true⟩ 20
    (recordFun false 10 5).start [(0, 2), (3, 1), (0, 2)]).map (·.out) = some t!"10\n11\n13\n" := by
  decide +kernel

end Dredd
