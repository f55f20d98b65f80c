/-
A call of `__dredd_enabled_mutation`, as printed in the preludes, does what
`enabledMutation` says.
-/
import Verif.Proofs.PreludeExec

namespace Dredd.MiniC

/-- The store holds the thread's variables. -/
def Rep (cpp : Bool) (th : Thread) (s : Store) : Prop :=
  s.vars .initialized = flag cpp th.initialized ∧ s.vars .bitset = .words th.bits ∧
    s.vars .globalSome = flag cpp th.some_

/-- A statement that initialises does what `initThread` says. -/
def Inits (cpp : Bool) (r : SOut) (lid : Val) : Out Thread Thread → Prop
  | .ok th => ∃ s', r = .next s' ∧ Rep cpp th s' ∧ s'.vars .localId = lid
  | .threw th => ∃ s', r = .threw s' ∧ Rep cpp th s'
  | .ub => r = .ub

/-- The block between reading the environment and the end of parsing. -/
def parseStmt (cpp : Bool) (first n : Nat) : Stmt :=
  if cpp then
    .ite (.bin .ne (.var .envVar) .null) (block [
      .ctor t!"std::string" .contents (.var .envVar),
      .while_ true .tt (roundCpp first n)])
  else
    .ite (.var .envVar) (block [
      .decl t!"char*" .temp (.call .malloc (.bin .add (.call .strlen (.var .envVar)) (.num 1))),
      .expr (.strcpy .temp (.var .envVar)),
      .declare t!"char*" .token,
      .set .token (.strtok (some .temp) ','),
      .while_ false (.var .token) (roundC first n),
      .expr (.call .free (.var .temp))])

/-- Everything that parsing may change. -/
def parseVars : List Var := .temp :: roundVars

theorem roundVars_sub : roundVars ⊆ parseVars := by simp [parseVars]

theorem exec_parse (cpp : Bool) (e : Env) (fuel first n : Nat) (s : Store) (p : Parse)
    (env : Option Text) (hf : (env.getD []).length < fuel)
    (he : s.vars .envVar = .ptr env) (hb : s.vars .bitset = .words p.bits)
    (hs : s.vars .some_ = flag cpp p.some_) :
    Parsed cpp parseVars s (exec e fuel (parseStmt cpp first n) s) (parseEnv cpp first n p env) := by
  have hv := eval_var e .envVar s _ he (by simp)
  cases cpp with
  | true =>
    simp only [parseStmt, if_true, block]
    rw [exec, eval_op_ok e .ne _ _ _ _ _ (by simp) hv rfl, op_ne_ptr, ofE_ok]
    cases env with
    | none => exact ⟨s, by simp [truth], hb, hs, Keep.refl _ _⟩
    | some t =>
      simp only [truth, ne_eq, reduceCtorEq, not_false_eq_true, decide_true, sbranch_true, parseEnv,
        if_true]
      rw [exec, exec, hv, ofE_ok]
      simp only [ctorVal, andThen_next]
      rw [exec, exec]
      simp only [exec, andThen_next']
      exact parsed_seq (Keep.set (by decide)) roundVars_sub
        (loop_cpp e fuel first n t fuel _ p hf (by simp) (by simpa using hb) (by simpa using hs))
  | false =>
    simp only [parseStmt, Bool.false_eq_true, if_false, block]
    rw [exec, hv, ofE_ok]
    cases env with
    | none => exact ⟨s, by simp [truth], hb, hs, Keep.refl _ _⟩
    | some t =>
      simp only [truth, Option.isSome_some, sbranch_true, parseEnv, Bool.false_eq_true, if_false]
      have hm : eval e (.call .malloc (.bin .add (.call .strlen (.var .envVar)) (.num 1))) s =
          .ok s (.buf (t.length + 1)) := by
        rw [eval, eval_op_ok e .add _ _ _ (.size (some t.length)) _ (by simp)
          (by rw [eval, hv, bind_ok]; rfl) (eval_num e 1 s), op_add_size]
        rfl
      rw [exec, exec, hm, ofE_ok, andThen_next]
      generalize h1 : s.set .temp (.buf (t.length + 1)) = s1
      have hk1 : Keep parseVars s s1 := h1 ▸ Keep.set (by decide)
      have hv1 : s1.vars .envVar = .ptr (some t) := by rw [hk1.2 _ (by decide), he]
      have hc : eval e (.strcpy .temp (.var .envVar)) s1 =
          .ok (s1.set .temp (.ptr (some t))) .unit := by
        rw [eval, eval_var e _ s1 _ hv1 (by simp), bind_ok]
        simp [strcpyVal, ← h1]
      rw [exec, exec, hc, ofE_ok, andThen_next, exec, exec, andThen_next, exec]
      generalize h2 : (s1.set .temp (.ptr (some t))).set .token .undef = s2
      have hk2 : Keep parseVars s s2 :=
        h2 ▸ (hk1.trans (Keep.set (by decide))).trans (Keep.set (by decide))
      have ht2 : s2.vars .temp = .ptr (some t) := by rw [← h2]; simp
      obtain ⟨s3, g1, g2, g3⟩ := exec_strtok e fuel s2 .temp (some .temp) t rfl ht2
      rw [g1, andThen_next, exec, exec]
      have hk3 : Keep parseVars s s3 := hk2.trans (g3.mono (by decide))
      have hfree : ∀ s4 : Store, s4.vars .temp = .ptr (some t) →
          exec e fuel (.seq (.expr (.call .free (.var .temp))) .skip) s4 = .next s4 := by
        intro s4 h4
        rw [exec, exec, eval, eval_var e _ s4 _ h4 (by simp), bind_ok]
        rfl
      have hb3 : s3.vars .bitset = .words p.bits := by
        rw [g3.2 _ (by decide), ← h2, ← h1]; simpa using hb
      have hs3 : s3.vars .some_ = flag false p.some_ := by
        rw [g3.2 _ (by decide), ← h2, ← h1]; simpa using hs
      have ht3 : s3.vars .temp = .ptr (some t) := by rw [g3.2 _ (by decide), ht2]
      have hloop := loop_c e fuel first n t fuel s3 p hf g2 hb3 hs3
      cases hr : parseC first n p t with
      | ok q =>
        rw [hr] at hloop
        obtain ⟨s4, a, b, c, d⟩ := hloop
        rw [a, andThen_next, hfree s4 (by rw [d.2 _ (by decide), ht3])]
        exact ⟨s4, rfl, b, c, hk3.trans (d.mono roundVars_sub)⟩
      | threw q =>
        rw [hr] at hloop
        obtain ⟨s4, a, b, d⟩ := hloop
        rw [a]
        exact ⟨s4, rfl, b, hk3.trans (d.mono roundVars_sub)⟩
      | ub =>
        rw [hr] at hloop
        simp only [Parsed] at hloop
        rw [hloop]
        rfl

/-- The `if (!initialized)` block. -/
def initStmt (cpp : Bool) (first n : Nat) : Stmt :=
  block [
    .decl (if cpp then t!"bool" else t!"int") .some_ (no cpp),
    .decl t!"const char*" .envVar (.call (if cpp then .getenvCpp else .getenvC) (.lit enabledName)),
    parseStmt cpp first n,
    .set .initialized (yes cpp),
    .set .globalSome (.var .some_)]

theorem exec_init (cpp : Bool) (e : Env) (fuel first n : Nat) (s : Store) (th : Thread)
    (hf : ((e.getenv enabledName).getD []).length < fuel) (hr : Rep cpp th s) :
    Inits cpp (exec e fuel (initStmt cpp first n) s) (s.vars .localId)
      (initThread cpp first n (e.getenv enabledName) th) := by
  have h1 : exec e fuel (.decl (if cpp then t!"bool" else t!"int") .some_ (no cpp)) s =
      .next (s.set .some_ (flag cpp false)) := by cases cpp <;> rfl
  generalize hs1 : s.set .some_ (flag cpp false) = s1 at h1
  have h2 : exec e fuel (.decl t!"const char*" .envVar
      (.call (if cpp then .getenvCpp else .getenvC) (.lit enabledName))) s1 =
      .next (s1.set .envVar (.ptr (e.getenv enabledName))) := by cases cpp <;> rfl
  simp only [initStmt, block]
  rw [exec, h1, andThen_next, exec, h2, andThen_next, exec]
  generalize hs2 : s1.set .envVar (.ptr (e.getenv enabledName)) = s2
  have hp := exec_parse cpp e fuel first n s2 ⟨th.bits, false⟩ (e.getenv enabledName) hf
    (by rw [← hs2]; simp) (by rw [← hs2, ← hs1]; simpa using hr.2.1) (by rw [← hs2, ← hs1]; simp)
  have hi2 : s2.vars .initialized = flag cpp th.initialized := by
    rw [← hs2, ← hs1]; simpa using hr.1
  have hg2 : s2.vars .globalSome = flag cpp th.some_ := by
    rw [← hs2, ← hs1]; simpa using hr.2.2
  have hl2 : s2.vars .localId = s.vars .localId := by rw [← hs2, ← hs1]; simp
  unfold initThread
  cases hr : parseEnv cpp first n ⟨th.bits, false⟩ (e.getenv enabledName) with
  | ub => rw [hr] at hp; simp only [Parsed] at hp; rw [hp]; rfl
  | threw p =>
    rw [hr] at hp
    obtain ⟨s3, a, b, c⟩ := hp
    rw [a]
    exact ⟨s3, rfl, by rw [c.2 _ (by decide), hi2], b, by rw [c.2 _ (by decide), hg2]⟩
  | ok p =>
    rw [hr] at hp
    obtain ⟨s3, a, b, c, d⟩ := hp
    have h4 : exec e fuel (.set .initialized (yes cpp)) s3 =
        .next (s3.set .initialized (flag cpp true)) := by cases cpp <;> rfl
    have hsome : (s3.set .initialized (flag cpp true)).vars .some_ = flag cpp p.some_ := by
      simpa using c
    rw [a, andThen_next, exec, h4, andThen_next, exec, exec,
      eval_var e _ _ _ hsome (by cases cpp <;> simp [flag])]
    exact ⟨_, rfl, ⟨by simp, by simpa using b, by simp⟩, by simp [d.2 .localId (by decide), hl2]⟩

/-- The function of the prelude for a language. -/
def enabledFun (cpp : Bool) (first n : Nat) : Fun :=
  if cpp then enabledCpp first n else enabledC first n

/-- The return statement. -/
def retStmt (cpp : Bool) : Stmt :=
  let e : Expr := .bin .band (.idx .bitset (.bin .div (.var .localId) (.num 64))) (bitOf cpp .localId)
  .ret (if cpp then .bin .ne (.par e) (.num 0) else e)

theorem body_eq (cpp : Bool) (first n : Nat) :
    (enabledFun cpp first n).body =
      block [.ite (.not (.var .initialized)) (initStmt cpp first n), retStmt cpp] := by
  cases cpp <;> rfl

/-- What the answer of the model has to do with the outcome of the call: a value
with the right truth value. -/
def Answers (cpp : Bool) (r : SOut) : Out Thread (Thread × Bool) → Prop
  | .ok (th, b) => ∃ s' v, r = .ret s' v ∧ truth v = some b ∧ Rep cpp th s'
  | .threw th => ∃ s', r = .threw s' ∧ Rep cpp th s'
  | .ub => r = .ub

theorem exec_ret (cpp : Bool) (e : Env) (fuel i : Nat) (s : Store) (th : Thread)
    (hr : Rep cpp th s) (hi : s.vars .localId = .int i) (hint : inInt (i : Int) = true) :
    Answers cpp (exec e fuel (.seq (retStmt cpp) .skip) s)
      (match th.bits[i / 64]? with
        | none => .ub
        | some w => .ok (th, decide (w &&& (1#64 <<< (i % 64)) ≠ 0#64))) := by
  have hidx := eval_idx e s _ (i / 64) th.bits (eval_div64 e s .localId i hi hint) hr.2.1
  have hbit := eval_bitOf cpp e s .localId i hi
  have hret : exec e fuel (.seq (retStmt cpp) .skip) s = exec e fuel (retStmt cpp) s := by
    rw [exec]; simp only [retStmt, exec]
    cases eval e (if cpp then _ else _) s <;> rfl
  rw [hret, retStmt, exec]
  cases hw : th.bits[i / 64]? with
  | none =>
    rw [hw] at hidx
    have hband : eval e (.bin .band (.idx .bitset (.bin .div (.var .localId) (.num 64)))
        (bitOf cpp .localId)) s = .ub := by
      rw [eval_op _ _ _ _ _ (by simp), hidx]; rfl
    cases cpp with
    | true => rw [if_pos rfl, eval_op _ _ _ _ _ (by simp), eval, hband]; rfl
    | false => rw [if_neg (by simp), hband]; rfl
  | some w =>
    rw [hw] at hidx
    have hband : eval e (.bin .band (.idx .bitset (.bin .div (.var .localId) (.num 64)))
        (bitOf cpp .localId)) s = .ok s (.u64 (w &&& (1#64 <<< (i % 64)))) := by
      rw [eval_op_ok e .band _ _ _ _ _ (by simp) hidx hbit]; rfl
    cases cpp with
    | true =>
      rw [if_pos rfl, eval_op_ok e .ne _ _ _ _ _ (by simp) (by rw [eval, hband]) (eval_num e 0 s)]
      exact ⟨s, _, rfl, rfl, hr⟩
    | false =>
      rw [if_neg (by simp), hband]
      refine ⟨s, _, rfl, ?_, hr⟩
      simp only [truth, Option.some.injEq]
      by_cases h : w &&& (1#64 <<< (i % 64)) = 0#64 <;> simp [h]

theorem call_enabled (cpp : Bool) (e : Env) (fuel first n i : Nat) (s : Store) (th : Thread)
    (hf : ((e.getenv enabledName).getD []).length < fuel) (hr : Rep cpp th s)
    (hint : inInt (i : Int) = true) :
    Answers cpp ((enabledFun cpp first n).call e fuel [i] s)
      (enabledMutation cpp first n (e.getenv enabledName) th i) := by
  have hpar : bindParams (enabledFun cpp first n).params [i] s = s.set .localId (.int i) := by
    cases cpp <;> rfl
  rw [Fun.call, hpar, body_eq]
  generalize hs1 : s.set .localId (.int i) = s1
  have hr1 : Rep cpp th s1 := by
    rw [← hs1]
    exact ⟨by simpa using hr.1, by simpa using hr.2.1, by simpa using hr.2.2⟩
  have hl1 : s1.vars .localId = .int i := by rw [← hs1]; simp
  simp only [block]
  have hnot : eval e (.not (.var .initialized)) s1 = .ok s1 (.bool (!th.initialized)) := by
    rw [eval, eval_var e _ s1 _ hr1.1 (by cases cpp <;> simp [flag]), bind_ok]
    cases cpp <;> cases th.initialized <;> rfl
  rw [exec, exec, hnot, ofE_ok]
  unfold enabledMutation
  cases hin : th.initialized with
  | true =>
    simp only [truth, Bool.not_true, sbranch_false, andThen_next, if_true]
    exact exec_ret cpp e fuel i s1 th hr1 hl1 hint
  | false =>
    simp only [truth, Bool.not_false, sbranch_true, Bool.false_eq_true, if_false]
    have hinit := exec_init cpp e fuel first n s1 th hf hr1
    cases hth : initThread cpp first n (e.getenv enabledName) th with
    | ub => rw [hth] at hinit; simp only [Inits] at hinit; rw [hinit]; rfl
    | threw th' =>
      rw [hth] at hinit
      obtain ⟨s', a, b⟩ := hinit
      rw [a]
      exact ⟨s', rfl, b⟩
    | ok th' =>
      rw [hth] at hinit
      obtain ⟨s', a, b, c⟩ := hinit
      rw [a, andThen_next]
      exact exec_ret cpp e fuel i s' th' b (by rw [c, hl1]) hint

theorem start_rep (cpp : Bool) (first n : Nat) :
    Rep cpp (Thread.start n) (enabledFun cpp first n).start := by
  cases cpp <;> exact ⟨rfl, rfl, rfl⟩

end Dredd.MiniC
