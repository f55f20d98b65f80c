/-
A call of `__dredd_record_covered_mutants`, as printed in the preludes, does what
`TrackState.step` says.
-/
import Verif.Proofs.PreludeExec
import Verif.Model.Tracking

namespace Dredd.MiniC

/-- The lines written for `m` ids starting with `x`. -/
def idLines (x : Nat) : Nat → Text
  | 0 => []
  | m + 1 => natDec x ++ t!"\n" ++ idLines (x + 1) m

/-- The contents of the tracking file with the given ids. -/
def logText (log : List Nat) : Text := (log.map fun x => natDec x ++ t!"\n").flatten

/-- The stream variable (mutate_ast_consumer.cc 364, 458). -/
def streamVar (cpp : Bool) : Var := if cpp then .outputFile else .fp

/-- The statement in the loop (mutate_ast_consumer.cc 368-369, 460-461). -/
def putStmt (cpp : Bool) (first : Nat) : Stmt :=
  block [.expr (if cpp then .putCpp .outputFile (trackedId first) else .putC .fp (trackedId first))]

/-- The loop after `j` rounds, with `r` rounds to go. -/
theorem loop_for (cpp : Bool) (e : Env) (f first k m : Nat) (ok : Bool)
    (hok : cpp = true ∨ ok = true) (hint : first + k + m ≤ 2147483647) :
    ∀ (r j fuel : Nat) (s : Store), j + r = m → r < fuel → s.vars .i = .int j →
      s.vars .localId = .int k → s.vars .numMutations = .int m →
      s.vars (streamVar cpp) = .stream ok →
      ∃ s', loop (eval e (.bin .lt (.var .i) (.var .numMutations))) (exec e f (putStmt cpp first))
          (fun s => .ofE (eval e (.bin .add (.var .i) (.num 1)) s) fun s v => .next (s.set .i v))
          fuel s = .next s' ∧
        s'.out = s.out ++ (if ok then idLines (first + k + j) r else []) ∧
        ∀ x, x ≠ .i → s'.vars x = s.vars x := by
  intro r
  induction r with
  | zero =>
    intro j fuel s hj hf hi hl hn _
    obtain ⟨fuel, rfl⟩ : ∃ q, fuel = q + 1 := ⟨fuel - 1, by omega⟩
    refine ⟨s, ?_, by cases ok <;> simp [idLines], fun _ _ => rfl⟩
    rw [loop, eval_op_ok e .lt _ _ _ _ _ (by simp) (eval_var e _ s _ hi (by simp))
      (eval_var e _ s _ hn (by simp)), op_lt, ofE_ok]
    simp [truth, show ¬ (j < m) by omega]
  | succ r ih =>
    intro j fuel s hj hf hi hl hn hst
    obtain ⟨fuel, rfl⟩ : ∃ q, fuel = q + 1 := ⟨fuel - 1, by omega⟩
    rw [loop, eval_op_ok e .lt _ _ _ _ _ (by simp) (eval_var e _ s _ hi (by simp))
      (eval_var e _ s _ hn (by simp)), op_lt, ofE_ok]
    simp only [truth, Int.ofNat_lt, show j < m by omega, decide_true, sbranch_true]
    have hid : eval e (trackedId first) s = .ok s (.int ((first + k + j : Nat) : Int)) := by
      have h1 : eval e (.bin .add (.num first) (.var .localId)) s =
          .ok s (.int ((first + k : Nat) : Int)) := by
        rw [eval_op_ok e .add _ _ _ _ _ (by simp) (eval_num e first s)
          (eval_var e _ s _ hl (by simp)), op_add, ← Int.natCast_add, intResult_ok]
        simp [inInt]; omega
      rw [trackedId, eval_op_ok e .add _ _ _ _ _ (by simp) h1 (eval_var e _ s _ hi (by simp)),
        op_add, ← Int.natCast_add, intResult_ok]
      simp [inInt]; omega
    generalize hs1 : ({ s with out := s.out ++
      (if ok then natDec (first + k + j) ++ t!"\n" else []) } : Store) = s1
    have hput : exec e f (putStmt cpp first) s = .next s1 := by
      rw [← hs1]
      cases cpp with
      | true =>
        simp only [putStmt, block, if_true]
        rw [exec, exec, eval, hid, bind_ok]
        simp only [streamVar, if_true] at hst
        cases ok with
        | true => simp [putVal, hst, exec, intDec]
        | false => simp [putVal, hst, exec]
      | false =>
        simp only [putStmt, block, Bool.false_eq_true, if_false]
        rw [exec, exec, eval, hid, bind_ok]
        simp only [streamVar, Bool.false_eq_true, if_false] at hst
        have : ok = true := by rcases hok with h | h; cases h; exact h
        subst this
        simp [putVal, hst, exec, intDec]
    have hi1 : s1.vars .i = .int j := by rw [← hs1]; exact hi
    rw [hput, round_next, eval_op_ok e .add _ _ _ _ _ (by simp) (eval_var e _ s1 _ hi1 (by simp))
      (eval_num e 1 s1), op_add, ← Int.natCast_add, intResult_ok _ _ (by simp [inInt]; omega),
      ofE_ok, andThen_next]
    have hstr : streamVar cpp ≠ .i := by cases cpp <;> decide
    obtain ⟨s', a, b, c⟩ := ih (j + 1) fuel (s1.set .i (.int ((j + 1 : Nat) : Int))) (by omega)
      (by omega) (by simp) (by rw [← hs1]; simpa using hl) (by rw [← hs1]; simpa using hn)
      (by rw [← hs1]; simpa [hstr] using hst)
    refine ⟨s', a, ?_, ?_⟩
    · rw [b, ← hs1]
      cases ok <;> simp [idLines, Nat.add_assoc]
    · intro x hx
      rw [c x hx, ← hs1]
      simp [hx]

/-- In C, writing to a file that could not be opened is undefined. -/
theorem loop_for_ub (e : Env) (f first k m : Nat) (hint : first + k + m ≤ 2147483647)
    (hm : 0 < m) (fuel : Nat) (s : Store) (hf : 0 < fuel) (hi : s.vars .i = .int 0)
    (hl : s.vars .localId = .int k) (hn : s.vars .numMutations = .int m)
    (hst : s.vars .fp = .stream false) :
    loop (eval e (.bin .lt (.var .i) (.var .numMutations))) (exec e f (putStmt false first))
      (fun s => .ofE (eval e (.bin .add (.var .i) (.num 1)) s) fun s v => .next (s.set .i v))
      fuel s = .ub := by
  obtain ⟨fuel, rfl⟩ : ∃ q, fuel = q + 1 := ⟨fuel - 1, by omega⟩
  rw [loop, eval_op_ok e .lt _ _ _ _ _ (by simp) (eval_var e _ s _ hi (by simp))
    (eval_var e _ s _ hn (by simp)), op_lt, ofE_ok]
  have : (0 : Int) < m := by omega
  simp only [truth, this, decide_true, sbranch_true]
  have h1 : eval e (.bin .add (.num first) (.var .localId)) s =
      .ok s (.int ((first + k : Nat) : Int)) := by
    rw [eval_op_ok e .add _ _ _ _ _ (by simp) (eval_num e first s)
      (eval_var e _ s _ hl (by simp)), op_add, ← Int.natCast_add, intResult_ok]
    simp [inInt]; omega
  have hid : eval e (trackedId first) s = .ok s (.int ((first + k : Nat) : Int)) := by
    rw [trackedId, eval_op_ok e .add _ _ _ _ _ (by simp) h1 (eval_var e _ s _ hi (by simp)),
      op_add, Int.add_zero, intResult_ok]
    simp [inInt]; omega
  have hput : exec e f (putStmt false first) s = .ub := by
    simp only [putStmt, block, Bool.false_eq_true, if_false]
    rw [exec, exec, eval, hid, bind_ok]
    simp [putVal, hst]
  rw [hput]
  rfl

/-- The tracking function of a language. -/
def recordFun (cpp : Bool) (first n : Nat) : Fun :=
  if cpp then recordCpp first n else recordC first n

/-- A finished call: control returns to the caller. -/
def Returns (r : SOut) (s' : Store) : Prop := r = .next s' ∨ r = .ret s' .unit

/-- What a call does, directly in terms of the flags and the file. -/
theorem call_record (cpp : Bool) (e : Env) (fuel first n k m : Nat) (s : Store) (fs : List Bool)
    (hint : first + k + m ≤ 2147483647) (hf : m < fuel) (hfs : s.vars .recorded = .flags fs) :
    match fs[k]? with
    | none => (recordFun cpp first n).call e fuel [k, m] s = .ub
    | some true => ∃ s', Returns ((recordFun cpp first n).call e fuel [k, m] s) s' ∧
        s'.vars .recorded = .flags fs ∧ s'.out = s.out
    | some false =>
      match e.getenv trackName with
      | none => ∃ s', Returns ((recordFun cpp first n).call e fuel [k, m] s) s' ∧
          s'.vars .recorded = .flags (fs.set k true) ∧ s'.out = s.out
      | some file =>
        if e.canOpen file then
          ∃ s', Returns ((recordFun cpp first n).call e fuel [k, m] s) s' ∧
            s'.vars .recorded = .flags (fs.set k true) ∧
            s'.out = s.out ++ idLines (first + k) m
        else if cpp then
          ∃ s', Returns ((recordFun cpp first n).call e fuel [k, m] s) s' ∧
            s'.vars .recorded = .flags (fs.set k true) ∧ s'.out = s.out
        else (recordFun cpp first n).call e fuel [k, m] s = .ub := by
  have hpar : bindParams (recordFun cpp first n).params [k, m] s =
      (s.set .localId (.int k)).set .numMutations (.int m) := by cases cpp <;> rfl
  rw [Fun.call, hpar]
  generalize hs1 : (s.set .localId (.int k)).set .numMutations (.int m) = s1
  have hl1 : s1.vars .localId = .int k := by rw [← hs1]; simp
  have hn1 : s1.vars .numMutations = .int m := by rw [← hs1]; simp
  have hf1 : s1.vars .recorded = .flags fs := by rw [← hs1]; simpa using hfs
  have ho1 : s1.out = s.out := by rw [← hs1]; rfl
  have hex : exchangeVal s1 .recorded (.int k) =
      match fs[k]? with
      | some b => .ok (s1.set .recorded (.flags (fs.set k true))) (.bool b)
      | none => .ub := by
    simp only [exchangeVal, hf1, show ¬ ((k : Int) < 0) by omega, if_false, Int.toNat_natCast]
    cases fs[k]? <;> rfl
  have hvl := eval_var e .localId s1 _ hl1 (by simp)
  cases hk : fs[k]? with
  | none =>
    rw [hk] at hex
    cases cpp <;>
    · simp only [recordFun, recordCpp, recordC, block, if_true, Bool.false_eq_true, if_false]
      rw [exec, exec, eval, hvl, bind_ok, hex]
      rfl
  | some b =>
    rw [hk] at hex
    have hset : b = true → fs.set k true = fs := by
      rintro rfl
      obtain ⟨hlt, hget⟩ := List.getElem?_eq_some_iff.mp hk
      have := List.set_getElem_self (as := fs) (i := k) hlt
      rwa [hget] at this
    cases b with
    | true =>
      simp only
      refine ⟨s1.set .recorded (.flags fs), Or.inr ?_, by simp, ho1⟩
      rw [hset rfl] at hex
      cases cpp <;>
      · simp only [recordFun, recordCpp, recordC, block, if_true, Bool.false_eq_true, if_false]
        rw [exec, exec, eval, hvl, bind_ok, hex]
        rfl
    | false =>
      generalize hs2 : s1.set .recorded (.flags (fs.set k true)) = s2 at hex
      have hf2 : s2.vars .recorded = .flags (fs.set k true) := by rw [← hs2]; simp
      have hl2 : s2.vars .localId = .int k := by rw [← hs2]; simpa using hl1
      have hn2 : s2.vars .numMutations = .int m := by rw [← hs2]; simpa using hn1
      have ho2 : s2.out = s.out := by rw [← hs2]; exact ho1
      generalize hs3 : s2.set .trackVar (.ptr (e.getenv trackName)) = s3
      have hv3 : s3.vars .trackVar = .ptr (e.getenv trackName) := by rw [← hs3]; simp
      have hf3 : s3.vars .recorded = .flags (fs.set k true) := by rw [← hs3]; simpa using hf2
      have hl3 : s3.vars .localId = .int k := by rw [← hs3]; simpa using hl2
      have hn3 : s3.vars .numMutations = .int m := by rw [← hs3]; simpa using hn2
      have ho3 : s3.out = s.out := by rw [← hs3]; exact ho2
      have hev := eval_var e .trackVar s3 _ hv3 (by simp)
      cases hg : e.getenv trackName with
      | none =>
        rw [hg] at hev
        refine ⟨s3, Or.inr ?_, hf3, ho3⟩
        cases cpp with
        | true =>
          simp only [recordFun, recordCpp, block, if_true]
          rw [exec, exec, eval, hvl, bind_ok, hex, ofE_ok]
          simp only [truth, sbranch_false, andThen_next]
          rw [exec, exec, show eval e (.call .getenvCpp (.lit trackName)) s2 =
            .ok s2 (.ptr (e.getenv trackName)) from rfl, ofE_ok, andThen_next, hs3, exec, exec,
            eval_op_ok e .eq _ _ _ _ _ (by simp) hev rfl]
          rfl
        | false =>
          simp only [recordFun, recordC, block, Bool.false_eq_true, if_false]
          rw [exec, exec, eval, hvl, bind_ok, hex, ofE_ok]
          simp only [truth, sbranch_false, andThen_next]
          rw [exec, exec, show eval e (.call .getenvC (.lit trackName)) s2 =
            .ok s2 (.ptr (e.getenv trackName)) from rfl, ofE_ok, andThen_next, hs3, exec, exec,
            eval, hev]
          rfl
      | some file =>
        rw [hg] at hev
        generalize hs4 : (s3.set (streamVar cpp) (.stream (e.canOpen file))).set .i (.int 0) = s4
        have hstr : ∀ x, x ≠ .outputFile → x ≠ .fp → x ≠ streamVar cpp := by
          intro x a b; cases cpp <;> simp_all [streamVar]
        have hf4 : s4.vars .recorded = .flags (fs.set k true) := by
          rw [← hs4]; simpa [hstr] using hf3
        have hl4 : s4.vars .localId = .int k := by rw [← hs4]; simpa [hstr] using hl3
        have hn4 : s4.vars .numMutations = .int m := by rw [← hs4]; simpa [hstr] using hn3
        have ho4 : s4.out = s.out := by rw [← hs4]; exact ho3
        have hi4 : s4.vars .i = .int 0 := by rw [← hs4]; simp
        have hst4 : s4.vars (streamVar cpp) = .stream (e.canOpen file) := by
          rw [← hs4]; cases cpp <;> simp [streamVar]
        have hcpp : cpp = true → exec e fuel (recordFun cpp first n).body s1 =
            (loop (eval e (.bin .lt (.var .i) (.var .numMutations)))
              (exec e fuel (putStmt cpp first))
              (fun s => .ofE (eval e (.bin .add (.var .i) (.num 1)) s) fun s v => .next (s.set .i v))
              fuel s4) := by
          rintro rfl
          simp only [recordFun, recordCpp, block, if_true]
          rw [exec, exec, eval, hvl, bind_ok, hex, ofE_ok]
          simp only [truth, sbranch_false, andThen_next]
          rw [exec, exec, show eval e (.call .getenvCpp (.lit trackName)) s2 =
            .ok s2 (.ptr (e.getenv trackName)) from rfl, ofE_ok, andThen_next, hs3, exec, exec,
            eval_op_ok e .eq _ _ _ _ _ (by simp) hev rfl, op_eq_ptr, ofE_ok]
          simp only [truth, reduceCtorEq, decide_false, sbranch_false, andThen_next]
          rw [exec, exec, andThen_next, exec, exec, eval]
          have hev' : eval e (.var .trackVar) (s3.set .outputFile .undef) =
              .ok (s3.set .outputFile .undef) (.ptr (some file)) :=
            eval_var e _ _ _ (by simpa [hg] using hv3) (by simp)
          have hov : ((s3.set .outputFile .undef).set .outputFile (.stream (e.canOpen file))).set
              .i (.int 0) = s4 := by
            rw [← hs4]
            simp only [Store.set, streamVar, if_true]
            congr 1
            funext y
            by_cases h1 : y = .i <;> by_cases h2 : y = .outputFile <;> simp [h1, h2]
          rw [hev', bind_ok]
          simp only [openCppVal, openVal, bind_ok, ofE_ok, andThen_next]
          rw [exec, exec, hov]
          exact andThen_next' _
        have hc : cpp = false → exec e fuel (recordFun cpp first n).body s1 =
            ((loop (eval e (.bin .lt (.var .i) (.var .numMutations)))
              (exec e fuel (putStmt cpp first))
              (fun s => .ofE (eval e (.bin .add (.var .i) (.num 1)) s) fun s v => .next (s.set .i v))
              fuel s4).andThen (exec e fuel (.expr (.call .fclose (.var .fp))))) := by
          rintro rfl
          simp only [recordFun, recordC, block, Bool.false_eq_true, if_false]
          rw [exec, exec, eval, hvl, bind_ok, hex, ofE_ok]
          simp only [truth, sbranch_false, andThen_next]
          rw [exec, exec, show eval e (.call .getenvC (.lit trackName)) s2 =
            .ok s2 (.ptr (e.getenv trackName)) from rfl, ofE_ok, andThen_next, hs3, exec, exec,
            eval, hev, bind_ok]
          simp only [notVal, truth, Option.isSome_some, Bool.not_true, ofE_ok, sbranch_false,
            andThen_next]
          rw [exec, exec, eval, hev, bind_ok]
          simp only [openVal, ofE_ok, andThen_next]
          have hov : (s3.set .fp (.stream (e.canOpen file))).set .i (.int 0) = s4 := by
            rw [← hs4]; rfl
          rw [exec, exec, hov]
          congr 1
          funext s'
          rw [exec]
          exact andThen_next' _
        by_cases hop : e.canOpen file = true
        · simp only
          rw [if_pos hop]
          obtain ⟨s', a, b, c⟩ := loop_for cpp e fuel first k m (e.canOpen file) (Or.inr hop) hint m 0
            fuel s4 (by omega) hf hi4 hl4 hn4 hst4
          refine ⟨s', Or.inl ?_, by rw [c _ (by simp), hf4], ?_⟩
          · cases cpp with
            | true => rw [hcpp rfl, a]
            | false =>
              rw [hc rfl, a, andThen_next, exec, eval, eval_var e .fp s' (.stream true)
                (by rw [c _ (by simp)]; simpa [streamVar, hop] using hst4) (by simp)]
              rfl
          · rw [b, ho4, hop]; simp
        · simp only
          rw [if_neg hop]
          cases cpp with
          | true =>
            rw [if_pos rfl]
            obtain ⟨s', a, b, c⟩ := loop_for true e fuel first k m (e.canOpen file) (Or.inl rfl) hint
              m 0 fuel s4 (by omega) hf hi4 hl4 hn4 hst4
            refine ⟨s', Or.inl ?_, by rw [c _ (by simp), hf4], ?_⟩
            · rw [hcpp rfl, a]
            · rw [b, ho4]; simp [hop]
          | false =>
            rw [if_neg (by simp), hc rfl]
            by_cases hm : m = 0
            · subst hm
              obtain ⟨fuel, rfl⟩ : ∃ q, fuel = q + 1 := ⟨fuel - 1, by omega⟩
              rw [loop, eval_op_ok e .lt _ _ _ _ _ (by simp) (eval_var e _ s4 _ hi4 (by simp))
                (eval_var e _ s4 _ hn4 (by simp)), op_lt, ofE_ok]
              have : s4.vars .fp = .stream false := by simpa [streamVar, hop] using hst4
              simp [truth, exec, eval, varVal, this, fnVal]
            · rw [loop_for_ub e fuel first k m hint (by omega) fuel s4 (by omega) hi4 hl4 hn4
                (by simpa [streamVar, hop] using hst4)]
              rfl

/-- A store of the process holds the flags of file `f` and the contents of the
tracking file. -/
def RepT (c : TrackCfg) (f : Nat) (st : TrackState) (s : Store) : Prop :=
  s.vars .recorded = .flags ((List.range (c.size f)).map (st.flags f)) ∧ s.out = logText st.log

theorem logText_append (a b : List Nat) : logText (a ++ b) = logText a ++ logText b := by
  simp [logText]

theorem run_add (c : TrackCfg) (st : TrackState) (a b : List Nat) :
    st.run c (a ++ b) = (st.run c a).bind fun st' => st'.run c b := by
  induction a generalizing st with
  | nil => rfl
  | cons t a ih =>
    simp only [List.cons_append, TrackState.run]
    cases st.step c t with
    | none => rfl
    | some st' => exact ih st'

/-- A thread that is writing finishes. -/
theorem run_writing (c : TrackCfg) (t : Nat) (rest : List RecCall) (r : Nat) :
    ∀ (x : Nat) (st : TrackState), st.threads t = ⟨rest, some (x, r + 1)⟩ →
      ∃ st', st.run c (List.replicate (r + 1) t) = some st' ∧ st'.threads t = ⟨rest, none⟩ ∧
        (∀ u, u ≠ t → st'.threads u = st.threads u) ∧ st'.flags = st.flags ∧
        logText st'.log = logText st.log ++ idLines x (r + 1) := by
  induction r with
  | zero =>
    intro x st h
    refine ⟨{ (st.setThread t ⟨rest, none⟩) with log := st.log ++ [x] },
      by simp [TrackState.run, TrackState.step, h], ?_, ?_, rfl, ?_⟩
    · simp [TrackState.setThread]
    · intro u hu; simp [TrackState.setThread, hu]
    · simp [logText, idLines]
  | succ r ih =>
    intro x st h
    rw [List.replicate_succ, TrackState.run]
    have hstep : st.step c t = some { (st.setThread t ⟨rest, some (x + 1, r + 1)⟩) with
        log := st.log ++ [x] } := by
      simp [TrackState.step, h]
    rw [hstep, Option.bind_some]
    obtain ⟨st', a, b, d, e, g⟩ := ih (x + 1)
      { (st.setThread t ⟨rest, some (x + 1, r + 1)⟩) with log := st.log ++ [x] }
      (by simp [TrackState.setThread])
    refine ⟨st', a, b, ?_, e, ?_⟩
    · intro u hu; rw [d u hu]; simp [TrackState.setThread, hu]
    · rw [g, logText_append]
      simp [logText, idLines]

theorem flags_set (size k : Nat) (g : Nat → Bool) (hk : k < size) :
    ((List.range size).map g).set k true =
      (List.range size).map (fun j => if j = k then true else g j) := by
  apply List.ext_getElem
  · simp
  · intro i h1 h2
    simp only [List.getElem_set, List.getElem_map, List.getElem_range]
    by_cases h : k = i
    · simp [h]
    · simp [h, Ne.symm h]

/-- A call made by a thread, without interruption, does what the steps of the
model do. -/
theorem call_track (cpp : Bool) (c : TrackCfg) (e : Env) (fuel : Nat) (st : TrackState) (s : Store)
    (t f k m : Nat) (rest : List RecCall) (hcpp : c.cpp = cpp)
    (henv : c.envSet = (e.getenv trackName).isSome)
    (hopen : ∀ file, e.getenv trackName = some file → e.canOpen file = c.canOpen)
    (hint : c.first f + k + m ≤ 2147483647) (hf : m < fuel)
    (ht : st.threads t = ⟨⟨f, k, m⟩ :: rest, none⟩) (hr : RepT c f st s) :
    match st.step c t with
    | none => (recordFun cpp (c.first f) (c.size f)).call e fuel [k, m] s = .ub
    | some _ => ∃ N st' s', st.run c (List.replicate N t) = some st' ∧
        st'.threads t = ⟨rest, none⟩ ∧ (∀ u, u ≠ t → st'.threads u = st.threads u) ∧
        (∀ g, g ≠ f → st'.flags g = st.flags g) ∧
        Returns ((recordFun cpp (c.first f) (c.size f)).call e fuel [k, m] s) s' ∧
        RepT c f st' s' := by
  have hcall := call_record cpp e fuel (c.first f) (c.size f) k m s _ hint hf hr.1
  by_cases hk : c.size f ≤ k
  · have hstep : st.step c t = none := by simp [TrackState.step, ht, hk]
    rw [hstep]
    rw [show ((List.range (c.size f)).map (st.flags f))[k]? = none by simp [hk]] at hcall
    exact hcall
  · have hlt : k < c.size f := by omega
    rw [show ((List.range (c.size f)).map (st.flags f))[k]? = some (st.flags f k) by
      simp [hlt]] at hcall
    cases hfl : st.flags f k with
    | true =>
      rw [hfl] at hcall
      have hstep : st.step c t = some (st.setThread t ⟨rest, none⟩) := by
        simp [TrackState.step, ht, hk, hfl]
      rw [hstep]
      obtain ⟨s', a, b, d⟩ := hcall
      refine ⟨1, st.setThread t ⟨rest, none⟩, s', by simp [TrackState.run, hstep],
        by simp [TrackState.setThread], fun u hu => by simp [TrackState.setThread, hu],
        fun _ _ => rfl, a, b, by rw [d, hr.2]; rfl⟩
    | false =>
      rw [hfl, flags_set _ _ _ hlt] at hcall
      generalize hst1 : ({ st with
        flags := fun g j => if g = f ∧ j = k then true else st.flags g j } : TrackState) = st1
      have hfl1 : (List.range (c.size f)).map (st1.flags f) =
          (List.range (c.size f)).map (fun j => if j = k then true else st.flags f j) := by
        rw [← hst1]; simp
      have hlog1 : st1.log = st.log := by rw [← hst1]
      have hth1 : st1.threads = st.threads := by rw [← hst1]
      have hoth : ∀ g, g ≠ f → st1.flags g = st.flags g := by
        intro g hg; rw [← hst1]; simp [hg]
      rw [← hfl1] at hcall
      have done : ∀ s', Returns ((recordFun cpp (c.first f) (c.size f)).call e fuel [k, m] s) s' →
          s'.vars .recorded = .flags ((List.range (c.size f)).map (st1.flags f)) →
          s'.out = s.out → st.step c t = some (st1.setThread t ⟨rest, none⟩) →
          ∃ N st' s', st.run c (List.replicate N t) = some st' ∧
            st'.threads t = ⟨rest, none⟩ ∧ (∀ u, u ≠ t → st'.threads u = st.threads u) ∧
            (∀ g, g ≠ f → st'.flags g = st.flags g) ∧
            Returns ((recordFun cpp (c.first f) (c.size f)).call e fuel [k, m] s) s' ∧
            RepT c f st' s' := by
        intro s' a b d hstep
        refine ⟨1, st1.setThread t ⟨rest, none⟩, s', by simp [TrackState.run, hstep],
          by simp [TrackState.setThread], fun u hu => by simp [TrackState.setThread, hu, hth1],
          fun g hg => hoth g hg, a, b, ?_⟩
        rw [d, hr.2]
        exact congrArg logText hlog1.symm
      cases hg : e.getenv trackName with
      | none =>
        have hset : c.envSet = false := by rw [henv, hg]; rfl
        have hstep : st.step c t = some (st1.setThread t ⟨rest, none⟩) := by
          rw [← hst1]; simp [TrackState.step, ht, hk, hfl, hset]
        rw [hg] at hcall
        rw [hstep]
        obtain ⟨s', a, b, d⟩ := hcall
        exact done s' a b d hstep
      | some file =>
        have hset : c.envSet = true := by rw [henv, hg]; rfl
        rw [hg] at hcall
        simp only [hopen file hg] at hcall
        cases hop : c.canOpen with
        | false =>
          rw [if_neg (by simp [hop])] at hcall
          cases cpp with
          | true =>
            have hstep : st.step c t = some (st1.setThread t ⟨rest, none⟩) := by
              rw [← hst1]; simp [TrackState.step, ht, hk, hfl, hset, hop, hcpp]
            rw [if_pos rfl] at hcall
            rw [hstep]
            obtain ⟨s', a, b, d⟩ := hcall
            exact done s' a b d hstep
          | false =>
            have hstep : st.step c t = none := by
              simp [TrackState.step, ht, hk, hfl, hset, hop, hcpp]
            rw [if_neg (by simp)] at hcall
            rw [hstep]
            exact hcall
        | true =>
          rw [if_pos hop] at hcall
          obtain ⟨s', a, b, d⟩ := hcall
          cases m with
          | zero =>
            have hstep : st.step c t = some (st1.setThread t ⟨rest, none⟩) := by
              rw [← hst1]; simp [TrackState.step, ht, hk, hfl, hset, hop]
            rw [hstep]
            exact done s' a b (by simpa [idLines] using d) hstep
          | succ m =>
            generalize hst2 : st1.setThread t ⟨rest, some (c.first f + k, m + 1)⟩ = st2
            have hstep : st.step c t = some st2 := by
              rw [← hst2, ← hst1]; simp [TrackState.step, ht, hk, hfl, hset, hop]
            rw [hstep]
            obtain ⟨st', p1, p2, p3, p4, p5⟩ := run_writing c t rest m (c.first f + k) st2
              (by rw [← hst2]; simp [TrackState.setThread])
            have hfl2 : st2.flags = st1.flags := by rw [← hst2]; rfl
            refine ⟨m + 2, st', s', ?_, p2, ?_, ?_, a, ?_, ?_⟩
            · rw [List.replicate_succ, TrackState.run, hstep]; exact p1
            · intro u hu
              rw [p3 u hu, ← hst2]
              simp [TrackState.setThread, hu, hth1]
            · intro g hgf; rw [p4, hfl2]; exact hoth g hgf
            · rw [b, p4, hfl2]
            · rw [d, p5, hr.2]
              rw [← hst2]
              simp [TrackState.setThread, hlog1]

end Dredd.MiniC
