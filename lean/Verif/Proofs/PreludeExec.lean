/-
Running the programs in `Model/PreludeProg.lean`.
-/
import Verif.Model.PreludeProg

namespace Dredd.MiniC

/-- How a flag of the prelude is represented (mutate_ast_consumer.cc 278-287,
403-409): `bool` in C++, `int` in C. -/
def flag (cpp : Bool) (b : Bool) : Val := if cpp then .bool b else .int (if b then 1 else 0)

/-- All variables but those listed, and the output, are unchanged. -/
def Keep (xs : List Var) (s s' : Store) : Prop :=
  s'.out = s.out ∧ ∀ x, x ∉ xs → s'.vars x = s.vars x

theorem Keep.refl (xs : List Var) (s : Store) : Keep xs s s := ⟨rfl, fun _ _ => rfl⟩

theorem Keep.trans {xs : List Var} {a b c : Store} (h : Keep xs a b) (h' : Keep xs b c) :
    Keep xs a c := ⟨h'.1.trans h.1, fun x hx => (h'.2 x hx).trans (h.2 x hx)⟩

theorem Keep.set {xs : List Var} {s : Store} {x : Var} {v : Val} (h : x ∈ xs) :
    Keep xs s (s.set x v) :=
  ⟨rfl, fun y hy => by
    have : y ≠ x := fun e => hy (e ▸ h)
    simp [Store.set, this]⟩

theorem Keep.mono {xs ys : List Var} {s s' : Store} (h : Keep xs s s') (hs : xs ⊆ ys) :
    Keep ys s s' := ⟨h.1, fun x hx => h.2 x fun hm => hx (hs hm)⟩

@[simp] theorem set_same (s : Store) (x : Var) (v : Val) : (s.set x v).vars x = v := by
  simp [Store.set]

@[simp] theorem set_ne (s : Store) (x y : Var) (v : Val) (h : y ≠ x) :
    (s.set x v).vars y = s.vars y := by simp [Store.set, h]

@[simp] theorem set_out (s : Store) (x : Var) (v : Val) : (s.set x v).out = s.out := rfl

@[simp] theorem bind_ok (s : Store) (v : Val) (f) : (EOut.ok s v).bind f = f s v := rfl
@[simp] theorem bind_ub (f) : EOut.ub.bind f = .ub := rfl
@[simp] theorem bind_threw (s : Store) (f) : (EOut.threw s).bind f = .threw s := rfl
@[simp] theorem ofE_ok (s : Store) (v : Val) (f) : SOut.ofE (.ok s v) f = f s v := rfl
@[simp] theorem ofE_ub (f) : SOut.ofE .ub f = .ub := rfl
@[simp] theorem ofE_threw (s : Store) (f) : SOut.ofE (.threw s) f = .threw s := rfl
@[simp] theorem andThen_next (s : Store) (f) : (SOut.next s).andThen f = f s := rfl
@[simp] theorem andThen_ub (f) : SOut.ub.andThen f = .ub := rfl
@[simp] theorem andThen_threw (s : Store) (f) : (SOut.threw s).andThen f = .threw s := rfl
@[simp] theorem andThen_brk (s : Store) (f) : (SOut.brk s).andThen f = .brk s := rfl
@[simp] theorem andThen_ret (s : Store) (v) (f) : (SOut.ret s v).andThen f = .ret s v := rfl
@[simp] theorem round_next (s : Store) (f) : (SOut.next s).round f = f s := rfl
@[simp] theorem round_brk (s : Store) (f) : (SOut.brk s).round f = .next s := rfl
@[simp] theorem round_ub (f) : SOut.ub.round f = .ub := rfl
@[simp] theorem round_threw (s : Store) (f) : (SOut.threw s).round f = .threw s := rfl
@[simp] theorem branch_true (a b) : branch (some true) a b = a := rfl
@[simp] theorem branch_false (a b) : branch (some false) a b = b := rfl
@[simp] theorem sbranch_true (a b) : sbranch (some true) a b = a := rfl
@[simp] theorem sbranch_false (a b) : sbranch (some false) a b = b := rfl

theorem branch_some (c : Bool) (a b : EOut) : branch (some c) a b = if c then a else b := by
  cases c <;> rfl
theorem sbranch_some (c : Bool) (a b : SOut) : sbranch (some c) a b = if c then a else b := by
  cases c <;> rfl

theorem inInt_nat {v : Int} (h : inInt v = true) : -2147483648 ≤ v ∧ v ≤ 2147483647 := by
  simpa [inInt] using h

/-- Variables that the statements for one value change. -/
def enableVars : List Var := [.localValue, .bitset, .some_]

theorem op_sub (s : Store) (a b : Int) : opVal .sub s (.int a) (.int b) = intResult s (a - b) := rfl
theorem op_add (s : Store) (a b : Int) : opVal .add s (.int a) (.int b) = intResult s (a + b) := rfl
theorem op_ge (s : Store) (a b : Int) :
    opVal .ge s (.int a) (.int b) = .ok s (.bool (decide (a ≥ b))) := rfl
theorem op_lt (s : Store) (a b : Int) :
    opVal .lt s (.int a) (.int b) = .ok s (.bool (decide (a < b))) := rfl
theorem op_band (s : Store) (a b : BitVec 64) :
    opVal .band s (.u64 a) (.u64 b) = .ok s (.u64 (a &&& b)) := rfl
theorem op_ne_u64 (s : Store) (a : BitVec 64) (b : Int) :
    opVal .ne s (.u64 a) (.int b) = .ok s (.bool (decide (a ≠ BitVec.ofInt 64 b))) := rfl
theorem op_shl (s : Store) (a : BitVec 64) (k : Nat) (h : k < 64) :
    opVal .shl s (.u64 a) (.int k) = .ok s (.u64 (a <<< k)) := by
  have : (k : Int) < 64 := by omega
  simp [opVal, this]
theorem op_eq_size (s : Store) (a b : Option Nat) :
    opVal .eq s (.size a) (.size b) = .ok s (.bool (decide (a = b))) := rfl
theorem op_add_size (s : Store) (a b : Nat) :
    opVal .add s (.size (some a)) (.int b) = .ok s (.size (some (a + b))) := by simp [opVal]
theorem op_eq_ptr (s : Store) (a b : Option Text) :
    opVal .eq s (.ptr a) (.ptr b) = .ok s (.bool (decide (a = b))) := rfl
theorem op_ne_ptr (s : Store) (a b : Option Text) :
    opVal .ne s (.ptr a) (.ptr b) = .ok s (.bool (decide (a ≠ b))) := rfl

theorem eval_op (e : Env) (op : Op) (a b : Expr) (s : Store) (h : op ≠ .land) :
    eval e (.bin op a b) s =
      (eval e a s).bind fun s v => (eval e b s).bind fun s w => opVal op s v w := by
  simp [eval, h]

theorem eval_op_ok (e : Env) (op : Op) (a b : Expr) (s : Store) (v w : Val) (h : op ≠ .land)
    (ha : eval e a s = .ok s v) (hb : eval e b s = .ok s w) :
    eval e (.bin op a b) s = opVal op s v w := by
  simp [eval, h, ha, hb]

theorem eval_num (e : Env) (n : Nat) (s : Store) : eval e (.num n) s = .ok s (.int n) := rfl

theorem eval_var (e : Env) (x : Var) (s : Store) (v : Val) (h : s.vars x = v) (hv : v ≠ .undef) :
    eval e (.var x) s = .ok s v := by
  subst h
  unfold eval varVal
  split
  · exact absurd ‹_› hv
  · rfl

theorem intResult_ok (s : Store) (v : Int) (h : inInt v = true) : intResult s v = .ok s (.int v) := by
  simp [intResult, h]

theorem eval_mod64 (e : Env) (s : Store) (x : Var) (k : Nat) (h : s.vars x = .int k) :
    eval e (.bin .mod (.var x) (.num 64)) s = .ok s (.int ((k % 64 : Nat) : Int)) := by
  have hm : Int.tmod k 64 = (k % 64 : Nat) := by
    rw [Int.tmod_eq_emod_of_nonneg (Int.natCast_nonneg k)]; omega
  have hi : inInt ((k % 64 : Nat) : Int) = true := by simp only [inInt]; simp; omega
  rw [eval_op_ok e _ _ _ _ _ _ (by simp) (eval_var e x s _ h (by simp)) (eval_num e 64 s)]
  show (if ((64 : Nat) : Int) = 0 then EOut.ub else intResult s (Int.tmod k 64)) = _
  rw [if_neg (by omega), hm, intResult_ok _ _ hi]

theorem eval_div64 (e : Env) (s : Store) (x : Var) (k : Nat) (h : s.vars x = .int k)
    (h1 : inInt (k : Int) = true) :
    eval e (.bin .div (.var x) (.num 64)) s = .ok s (.int ((k / 64 : Nat) : Int)) := by
  have hm : Int.tdiv k 64 = (k / 64 : Nat) := by
    rw [Int.tdiv_eq_ediv_of_nonneg (Int.natCast_nonneg k)]; omega
  have := inInt_nat h1
  have hi : inInt ((k / 64 : Nat) : Int) = true := by simp only [inInt]; simp; omega
  rw [eval_op_ok e _ _ _ _ _ _ (by simp) (eval_var e x s _ h (by simp)) (eval_num e 64 s)]
  show (if ((64 : Nat) : Int) = 0 then EOut.ub else intResult s (Int.tdiv k 64)) = _
  rw [if_neg (by omega), hm, intResult_ok _ _ hi]

theorem eval_bitOf (cpp : Bool) (e : Env) (s : Store) (x : Var) (k : Nat) (h : s.vars x = .int k) :
    eval e (bitOf cpp x) s = .ok s (.u64 (1#64 <<< (k % 64))) := by
  have h1 : eval e (oneU64 cpp) s = .ok s (.u64 1#64) := by cases cpp <;> rfl
  unfold bitOf
  rw [eval, eval_op _ _ _ _ _ (by simp), h1, bind_ok, eval, eval_mod64 e s x k h, bind_ok,
    op_shl _ _ _ (by omega)]

theorem eval_idx (e : Env) (s : Store) (a : Expr) (k : Nat) (ws : List (BitVec 64))
    (ha : eval e a s = .ok s (.int k)) (hb : s.vars .bitset = .words ws) :
    eval e (.idx .bitset a) s =
      match ws[k]? with
      | some w => .ok s (.u64 w)
      | none => .ub := by
  rw [eval, ha, bind_ok]
  simp only [idxVal, hb, show ¬ ((k : Int) < 0) by omega, if_false, Int.toNat_natCast]
  cases ws[k]? <;> rfl

theorem orSet_eq (s : Store) (k : Nat) (w' : BitVec 64) (ws : List (BitVec 64))
    (hb : s.vars .bitset = .words ws) :
    orSetVal s .bitset (.int k) (.u64 w') =
      match ws[k]? with
      | some w => .next (s.set .bitset (.words (ws.set k (w ||| w'))))
      | none => .ub := by
  simp only [orSetVal, hb, show ¬ ((k : Int) < 0) by omega, if_false, Int.toNat_natCast]
  cases ws[k]? <;> rfl

/-- What running a statement that parses has to do with the model of parsing. -/
def Parsed (cpp : Bool) (xs : List Var) (s : Store) (r : SOut) : Out Parse Parse → Prop
  | .ok p => ∃ s', r = .next s' ∧ s'.vars .bitset = .words p.bits ∧
      s'.vars .some_ = flag cpp p.some_ ∧ Keep xs s s'
  | .threw p => ∃ s', r = .threw s' ∧ s'.vars .bitset = .words p.bits ∧ Keep xs s s'
  | .ub => r = .ub

theorem exec_enable (cpp : Bool) (e : Env) (fuel first n : Nat) (s : Store) (v : Int) (p : Parse)
    (hv : s.vars .value = .int v) (hb : s.vars .bitset = .words p.bits)
    (hs : s.vars .some_ = flag cpp p.some_) :
    Parsed cpp enableVars s (exec e fuel (enableStmts cpp first n) s) (enableValue first n p v) := by
  have hsub : eval e (.bin .sub (.var .value) (.num first)) s = intResult s (v - first) := by
    rw [eval_op_ok e _ _ _ _ _ _ (by simp) (eval_var e _ s _ hv (by simp)) (eval_num e _ s)]
    rfl
  simp only [enableStmts, block]
  rw [exec, exec, hsub]
  unfold enableValue
  by_cases hi : inInt (v - first) = true
  · rw [intResult_ok _ _ hi]
    simp only [hi, Bool.not_true, Bool.false_eq_true, if_false, ofE_ok, andThen_next]
    generalize hlv : v - (first : Int) = lv at *
    have hl : (s.set .localValue (.int lv)).vars .localValue = .int lv := by simp
    have hcond : eval e (.bin .land (.bin .ge (.var .localValue) (.num 0))
        (.bin .lt (.var .localValue) (.num n))) (s.set .localValue (.int lv)) =
        .ok (s.set .localValue (.int lv)) (.bool (decide (0 ≤ lv ∧ lv < n))) := by
      rw [eval, if_pos rfl,
        eval_op_ok e .ge _ _ _ _ _ (by simp) (eval_var e _ _ _ hl (by simp)) (eval_num e _ _),
        op_ge, bind_ok,
        eval_op_ok e .lt _ _ _ _ _ (by simp) (eval_var e _ _ _ hl (by simp)) (eval_num e _ _),
        op_lt, bind_ok]
      simp only [truth, branch_some]
      by_cases h0 : 0 ≤ lv <;> by_cases h1 : lv < n <;> simp [h0, h1]
    rw [exec, exec, hcond]
    simp only [ofE_ok, truth, sbranch_some]
    by_cases hc : 0 ≤ lv ∧ lv < n
    · obtain ⟨k, rfl⟩ : ∃ k : Nat, lv = k := ⟨lv.toNat, by omega⟩
      rw [if_pos hc, exec, exec, eval_bitOf cpp e _ _ k hl, ofE_ok, eval_div64 e _ _ k hl hi, ofE_ok,
        orSet_eq _ _ _ p.bits (by simpa using hb)]
      simp only [hc, and_self, decide_true, if_true, Int.toNat_natCast]
      cases hw : p.bits[k / 64]? with
      | none => simp [Parsed]
      | some w =>
        refine ⟨(((s.set .localValue (.int k)).set .bitset
          (.words (p.bits.set (k / 64) (w ||| 1#64 <<< (k % 64)))))).set .some_ (flag cpp true),
          ?_, by simp, by simp, ?_⟩
        · cases cpp <;> rfl
        · exact ((Keep.set (by simp [enableVars])).trans (Keep.set (by simp [enableVars]))).trans
            (Keep.set (by simp [enableVars]))
    · rw [if_neg hc]
      refine ⟨s.set .localValue (.int lv), by simp [hc, exec], by simpa using hb, by simpa using hs,
        Keep.set (by simp [enableVars])⟩
  · simp [Parsed, intResult, hi]

/-! ### C++ -/

theorem findIdx_none (t : Text) (h : t.findIdx? (· == ',') = none) :
    t.takeWhile (· ≠ ',') = t ∧ t.dropWhile (· ≠ ',') = [] := by
  induction t with
  | nil => simp
  | cons c t ih =>
    simp only [List.findIdx?_cons] at h
    by_cases hc : c = ','
    · simp [hc] at h
    · simp only [beq_iff_eq, hc, if_false, Option.map_eq_none_iff] at h
      simpa [hc] using ih h

theorem findIdx_some (t : Text) (k : Nat) (h : t.findIdx? (· == ',') = some k) :
    t.take k = t.takeWhile (· ≠ ',') ∧
      ∃ r, t.dropWhile (· ≠ ',') = ',' :: r ∧ t.drop (k + 1) = r := by
  induction t generalizing k with
  | nil => simp at h
  | cons c t ih =>
    simp only [List.findIdx?_cons] at h
    by_cases hc : c = ','
    · simp [hc] at h
      subst h
      simp [hc]
    · simp only [beq_iff_eq, hc, if_false, Option.map_eq_some_iff] at h
      obtain ⟨j, hj, rfl⟩ := h
      obtain ⟨h1, r, h2, h3⟩ := ih j hj
      refine ⟨by simp [hc, h1], r, by simpa [hc] using h2, by simpa using h3⟩

/-- Variables that a round of the parsing loop changes. -/
def roundVars : List Var := [.localValue, .bitset, .some_, .pos, .token, .value, .contents, .strtokPos]

theorem enableVars_sub : enableVars ⊆ roundVars := by
  intro x; cases x <;> decide

/-- The store with `pos` and `token` set. -/
def afterFind (s : Store) (t : Text) : Store :=
  (s.set .pos (.size (t.findIdx? (· == ',')))).set .token (.str (t.takeWhile (· ≠ ',')))

theorem exec_find (e : Env) (fuel : Nat) (s : Store) (t : Text) (rest : Stmt)
    (hc : s.vars .contents = .str t) :
    exec e fuel (.seq (.decl t!"size_t" .pos (.find .contents ','))
      (.seq (.decl t!"std::string" .token
        (.par (.cond (.bin .eq (.var .pos) .npos) (.var .contents)
          (.substr .contents 0 (.var .pos))))) rest)) s = exec e fuel rest (afterFind s t) := by
  have h1 : eval e (.find .contents ',') s = .ok s (.size (t.findIdx? (· == ','))) := by
    simp [eval, findVal, hc]
  rw [exec, exec, h1, ofE_ok, andThen_next, exec, exec, eval, eval]
  generalize hs1 : s.set .pos (.size (t.findIdx? (· == ','))) = s1
  have hp : s1.vars .pos = .size (t.findIdx? (· == ',')) := by rw [← hs1]; simp
  have hc1 : s1.vars .contents = .str t := by rw [← hs1]; simpa using hc
  have hv := eval_var e .pos s1 _ hp (by simp)
  rw [eval_op_ok e .eq _ _ _ _ _ (by simp) hv rfl, op_eq_size, bind_ok]
  unfold afterFind
  rw [hs1]
  cases hf : t.findIdx? (· == ',') with
  | none =>
    obtain ⟨h1, _⟩ := findIdx_none t hf
    simp only [truth, decide_true, branch_true]
    rw [eval_var e .contents s1 _ hc1 (by simp), ofE_ok, andThen_next, h1]
  | some k =>
    obtain ⟨h1, _⟩ := findIdx_some t k hf
    simp only [truth, reduceCtorEq, decide_false, branch_false]
    rw [eval, hv, bind_ok, hf]
    simp [substrVal, hc1, h1]

theorem exec_token (e : Env) (fuel first n : Nat) (s : Store) (tok : Text) (p : Parse)
    (ht : s.vars .token = .str tok) (hb : s.vars .bitset = .words p.bits)
    (hs : s.vars .some_ = flag true p.some_) :
    Parsed true (.value :: enableVars) s
      (exec e fuel (.ite (.not (.empty .token))
        (.seq (.decl t!"int" .value (.call .stoi (.var .token))) (enableStmts true first n))) s)
      (tokenCpp first n p tok) := by
  have h1 : eval e (.not (.empty .token)) s = .ok s (.bool (!tok.isEmpty)) := by
    simp [eval, emptyVal, ht, notVal, truth]
  rw [exec, h1, ofE_ok]
  unfold tokenCpp
  cases hemp : tok.isEmpty with
  | true => exact ⟨s, by simp [truth], hb, hs, Keep.refl _ _⟩
  | false =>
    simp only [truth, Bool.not_false, sbranch_true, Bool.false_eq_true, if_false]
    rw [exec, exec, eval, eval_var e _ s _ ht (by simp), bind_ok]
    cases hv : stoi tok with
    | none => exact ⟨s, by simp [fnVal, hv], hb, Keep.refl _ _⟩
    | some v =>
      simp only [fnVal, hv, ofE_ok, andThen_next]
      have := exec_enable true e fuel first n (s.set .value (.int v)) v p (by simp)
        (by simpa using hb) (by simpa using hs)
      have hk : Keep (.value :: enableVars) s (s.set .value (.int v)) := Keep.set (by simp)
      cases hr : enableValue first n p v with
      | ok p' =>
        rw [hr] at this
        obtain ⟨s', h1, h2, h3, h4⟩ := this
        exact ⟨s', h1, h2, h3, hk.trans (h4.mono (by simp))⟩
      | threw p' =>
        rw [hr] at this
        obtain ⟨s', h1, h2, h4⟩ := this
        exact ⟨s', h1, h2, hk.trans (h4.mono (by simp))⟩
      | ub =>
        rw [hr] at this
        exact this

theorem tokenVars_sub : Var.value :: enableVars ⊆ roundVars := by
  intro x; cases x <;> decide

/-- The result of the loop corresponds to `parseCpp`. -/
theorem loop_cpp (e : Env) (f first n : Nat) (t : Text) :
    ∀ (fuel : Nat) (s : Store) (p : Parse), t.length < fuel → s.vars .contents = .str t →
      s.vars .bitset = .words p.bits → s.vars .some_ = flag true p.some_ →
      Parsed true roundVars s
        (loop (eval e .tt) (exec e f (roundCpp first n)) .next fuel s) (parseCpp first n p t) := by
  induction h : t.length using Nat.strongRecOn generalizing t with
  | ind len ih =>
    intro fuel s p hf hc hb hs
    obtain ⟨fuel, rfl⟩ : ∃ k, fuel = k + 1 := ⟨fuel - 1, by omega⟩
    rw [loop, eval, ofE_ok]
    simp only [truth, sbranch_true, roundCpp, block]
    rw [exec_find e f s t _ hc, exec, parseCpp]
    have hbr : Keep roundVars s (afterFind s t) :=
      (Keep.set (by decide)).trans (Keep.set (by decide))
    have htok := exec_token e f first n (afterFind s t) (t.takeWhile (· ≠ ',')) p
      (by simp [afterFind]) (by simpa [afterFind] using hb) (by simpa [afterFind] using hs)
    have hpos : (afterFind s t).vars .pos = .size (t.findIdx? (· == ',')) := by simp [afterFind]
    have hcon : (afterFind s t).vars .contents = .str t := by simpa [afterFind] using hc
    cases hr : tokenCpp first n p (t.takeWhile (· ≠ ',')) with
    | ub =>
      rw [hr] at htok
      simp only [Parsed] at htok
      rw [htok]
      rfl
    | threw p' =>
      rw [hr] at htok
      obtain ⟨s', h1, h2, h3⟩ := htok
      rw [h1]
      exact ⟨s', rfl, h2, hbr.trans (h3.mono tokenVars_sub)⟩
    | ok p' =>
      rw [hr] at htok
      obtain ⟨s', h1, h2, h3, h4⟩ := htok
      have hk := hbr.trans (h4.mono tokenVars_sub)
      have hpos' : s'.vars .pos = .size (t.findIdx? (· == ',')) := by
        rw [h4.2 _ (by decide), hpos]
      have hcon' : s'.vars .contents = .str t := by rw [h4.2 _ (by decide), hcon]
      rw [h1, andThen_next, exec, exec, eval_op_ok e .eq _ _ _ _ _ (by simp)
        (eval_var e .pos s' _ hpos' (by simp)) rfl, op_eq_size, ofE_ok]
      cases hfi : t.findIdx? (· == ',') with
      | none =>
        obtain ⟨_, hd⟩ := findIdx_none t hfi
        simp only
        split
        · exact ⟨s', by simp [truth, exec], h2, h3, hk⟩
        · rename_i heq; rw [hd] at heq; cases heq
      | some k =>
        obtain ⟨_, r, hd, hdr⟩ := findIdx_some t k hfi
        simp only [truth, reduceCtorEq, decide_false, sbranch_false, andThen_next]
        rw [exec, exec, eval, eval_op_ok e .add _ _ _ _ _ (by simp)
          (eval_var e .pos s' _ hpos' (by simp)) (eval_num e 1 s'), hfi, op_add_size, bind_ok]
        have her : eraseVal s' .contents 0 (.size (some (k + 1))) =
            .ok (s'.set .contents (.str r)) .unit := by
          simp [eraseVal, hcon', ← hdr]
        rw [her, ofE_ok, andThen_next, exec, round_next]
        split
        · rename_i heq; rw [hd] at heq; cases heq
        · rename_i c rest heq
          rw [hd] at heq
          obtain ⟨_, rfl⟩ := List.cons.inj heq
          have hlen : r.length < len := by
            rw [← hdr, List.length_drop]
            have : 0 < t.length := by
              cases t with
              | nil => simp at hd
              | cons => simp
            omega
          have := ih r.length hlen r rfl fuel (s'.set .contents (.str r)) p' (by omega) (by simp)
            (by simpa using h2) (by simpa using h3)
          have hk' : Keep roundVars s (s'.set .contents (.str r)) := hk.trans (Keep.set (by decide))
          revert this
          cases parseCpp first n p' r with
          | ok q => exact fun ⟨s'', a, b, c, d⟩ => ⟨s'', a, b, c, hk'.trans d⟩
          | threw q => exact fun ⟨s'', a, b, d⟩ => ⟨s'', a, b, hk'.trans d⟩
          | ub => exact id

/-! ### C -/

theorem strtokVal_eq (s : Store) (t : Text) :
    strtokVal s ',' t =
      match strtok t with
      | none => .ok s (.ptr none)
      | some (tok, rest) => .ok (s.set .strtokPos (.ptr (some rest))) (.ptr (some tok)) := by
  unfold strtokVal strtok
  cases t.dropWhile (· = ',') <;> rfl

/-- `token` and `strtok`'s position after a call of `strtok` on `src`. -/
def AtLoop (s : Store) (src : Text) : Prop :=
  s.vars .token = .ptr ((strtok src).map (·.1)) ∧
    ∀ tok rest, strtok src = some (tok, rest) → s.vars .strtokPos = .ptr (some rest)

theorem exec_strtok (e : Env) (fuel : Nat) (s : Store) (x : Var) (o : Option Var) (src : Text)
    (ho : o.getD .strtokPos = x) (hx : s.vars x = .ptr (some src)) :
    ∃ s', exec e fuel (.set .token (.strtok o ',')) s = .next s' ∧ AtLoop s' src ∧
      Keep [.token, .strtokPos] s s' := by
  have : eval e (.strtok o ',') s = strtokVal s ',' src := by
    cases o <;> (simp only [Option.getD] at ho; subst ho; simp [eval, strtokVar, hx])
  rw [exec, this, strtokVal_eq]
  cases h : strtok src with
  | none =>
    exact ⟨s.set .token (.ptr none), rfl, ⟨by simp [h], by simp [h]⟩, Keep.set (by simp)⟩
  | some q =>
    obtain ⟨tok, rest⟩ := q
    refine ⟨(s.set .strtokPos (.ptr (some rest))).set .token (.ptr (some tok)), rfl,
      ⟨by simp [h], ?_⟩, (Keep.set (by simp)).trans (Keep.set (by simp))⟩
    intro tok' rest' h'
    rw [h] at h'
    simp only [Option.some.injEq, Prod.mk.injEq] at h'
    simp [h'.2]

theorem parsed_seq {xs ys : List Var} {cpp : Bool} {s s' : Store} {r : SOut} {o : Out Parse Parse}
    (hk : Keep ys s s') (hx : xs ⊆ ys) (h : Parsed cpp xs s' r o) : Parsed cpp ys s r o := by
  cases o with
  | ok p => exact let ⟨a, b, c, d, f⟩ := h; ⟨a, b, c, d, hk.trans (f.mono hx)⟩
  | threw p => exact let ⟨a, b, c, f⟩ := h; ⟨a, b, c, hk.trans (f.mono hx)⟩
  | ub => exact h

theorem exec_tokenC (e : Env) (fuel first n : Nat) (s : Store) (tok : Text) (p : Parse)
    (ht : s.vars .token = .ptr (some tok)) (hb : s.vars .bitset = .words p.bits)
    (hs : s.vars .some_ = flag false p.some_) :
    Parsed false (.value :: enableVars) s
      (exec e fuel (.seq (.decl t!"int" .value (.call .atoi (.var .token)))
        (enableStmts false first n)) s) (tokenC first n p tok) := by
  rw [exec, exec, eval, eval_var e _ s _ ht (by simp), bind_ok]
  unfold tokenC
  cases hv : atoi tok with
  | none => simp [Parsed, fnVal, hv]
  | some v =>
    simp only [fnVal, hv, ofE_ok, andThen_next]
    exact parsed_seq (Keep.set (by simp)) (by simp)
      (exec_enable false e fuel first n (s.set .value (.int v)) v p (by simp)
        (by simpa using hb) (by simpa using hs))

theorem andThen_assoc (r : SOut) (f g : Store → SOut) :
    (r.andThen f).andThen g = r.andThen fun s => (f s).andThen g := by cases r <;> rfl

theorem andThen_next' (r : SOut) : (r.andThen fun s => .next s) = r := by cases r <;> rfl

/-- The result of the loop corresponds to `parseC`. -/
theorem loop_c (e : Env) (f first n : Nat) (src : Text) :
    ∀ (fuel : Nat) (s : Store) (p : Parse), src.length < fuel → AtLoop s src →
      s.vars .bitset = .words p.bits → s.vars .some_ = flag false p.some_ →
      Parsed false roundVars s
        (loop (eval e (.var .token)) (exec e f (roundC first n)) .next fuel s)
        (parseC first n p src) := by
  induction h : src.length using Nat.strongRecOn generalizing src with
  | ind len ih =>
    intro fuel s p hf hl hb hs
    obtain ⟨fuel, rfl⟩ : ∃ k, fuel = k + 1 := ⟨fuel - 1, by omega⟩
    rw [loop, parseC, eval_var e _ s _ hl.1 (by simp), ofE_ok]
    split
    · rename_i hst
      exact ⟨s, by simp [hst, truth], hb, hs, Keep.refl _ _⟩
    · rename_i tok rest hst
      have htk : s.vars .token = .ptr (some tok) := by rw [hl.1, hst]; rfl
      have hround : exec e f (roundC first n) s =
          (exec e f (.seq (.decl t!"int" .value (.call .atoi (.var .token)))
            (enableStmts false first n)) s).andThen
              (exec e f (.set .token (.strtok none ','))) := by
        simp only [roundC, block, exec, andThen_assoc]
        congr 1; funext s; congr 1; funext s
        cases (SOut.ofE (eval e (.strtok none ',') s) fun s v => SOut.next (s.set .token v)) <;> rfl
      simp only [truth, hst, Option.map_some, Option.isSome_some, sbranch_true]
      rw [hround]
      have htok := exec_tokenC e f first n s tok p htk hb hs
      cases hr : tokenC first n p tok with
      | ub => rw [hr] at htok; simp only [Parsed] at htok; rw [htok]; rfl
      | threw p' =>
        rw [hr] at htok
        obtain ⟨s', h1, h2, h3⟩ := htok
        rw [h1]
        exact ⟨s', rfl, h2, h3.mono tokenVars_sub⟩
      | ok p' =>
        rw [hr] at htok
        obtain ⟨s', h1, h2, h3, h4⟩ := htok
        rw [h1, andThen_next]
        have hpos : s'.vars .strtokPos = .ptr (some rest) := by
          rw [h4.2 _ (by decide)]; exact hl.2 _ _ hst
        obtain ⟨s'', g1, g2, g3⟩ := exec_strtok e f s' .strtokPos none rest rfl hpos
        rw [g1, round_next, andThen_next]
        exact parsed_seq ((h4.mono tokenVars_sub).trans (g3.mono (by decide))) (by simp)
          (ih rest.length (by have := strtok_shorter hst; omega) rest rfl fuel s'' p'
            (by have := strtok_shorter hst; omega) g2
            (by rw [g3.2 _ (by decide)]; exact h2) (by rw [g3.2 _ (by decide)]; exact h3))

end Dredd.MiniC
