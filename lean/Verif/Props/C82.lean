/-
C82: arithmetic on floating-point numbers: what optimisation drops equals the original or something
kept, unless it is not a number, and but for the signs of zeros.
-/
import Verif.Props.C29
import Verif.Props.C81

namespace Dredd

/-- Possible values of an expression: those of its type and, if clang has determined one that is told
apart, that. -/
structure ExprInfo.FloatValue (F : FloatFmt) (x : ExprInfo) (v : FVal) : Prop where
  holds : F.Holds v
  const : ∀ c w, x.floatVal = some c → c.val = some w → v = w

/-- `e` is the whole expression of `s`, which computes with floating-point numbers. -/
structure FloatExpr (F : FloatFmt) (s : BinSite) (e : ExprSite) : Prop where
  ty : e.self.ty = s.resTy
  rvalue : e.self.lvalue = false
  flt : s.resTy.isFloat = true
  lhsTy : s.lhs.ty = s.resTy
  rhsTy : s.rhs.ty = s.resTy
  const : ∀ a b w, s.lhs.FloatValue F a → s.rhs.FloatValue F b → F.bin a b s.op = some w →
    ∀ c v, e.self.floatVal = some c → c.val = some v → w = v

/-- The value of an expression of value `v` when an action is applied (`none`: the original). -/
def floatExprValue (cpp : Bool) (v : FVal) : Option Act → Option FVal
  | none => some v
  | some (.expr x) =>
    match x.change cpp with
    | .insert o => v.un o
    | .const c => c.float?
  | _ => none

/-- The value of a binary expression when an action is applied (`none`: the original). -/
def BinSite.floatValue (F : FloatFmt) (cpp : Bool) (s : BinSite) (a b : FVal) : Option Act → Option FVal
  | some (.bin x) =>
    match x.change with
    | .op o => F.bin a b o
    | .lhs => some a
    | .rhs => some b
  | K => (F.bin a b s.op).bind fun v => floatExprValue cpp v K

section
variable {F : FloatFmt} {l : Lang} {o : Options} {s : BinSite} {e : ExprSite} {i j k m : Nat}

theorem isFlt_iff {x : ExprInfo} (h : x.ty.isFloat = true) (c : FConst) :
    x.isFlt c = true ↔ x.floatVal = some c := by
  simp [ExprInfo.isFlt, h]

theorem isInt_flt {x : ExprInfo} (h : x.ty.isFloat = true) (c : Int) : x.isInt c = false := by
  simp [ExprInfo.isInt, BTy.isInteger, h]

theorem isZero_flt {x : ExprInfo} (h : x.ty.isFloat = true) : x.isZero = true ↔ x.floatVal = some .zero := by
  simp [ExprInfo.isZero, isInt_flt h, isFlt_iff h]

theorem isOne_flt {x : ExprInfo} (h : x.ty.isFloat = true) : x.isOne = true ↔ x.floatVal = some .one := by
  simp [ExprInfo.isOne, isInt_flt h, isFlt_iff h]

theorem isSmallConst_flt {x : ExprInfo} (h : x.ty.isFloat = true) :
    x.isSmallConst = true ↔ ∃ c w, x.floatVal = some c ∧ c.val = some w := by
  have : ∀ c, x.floatVal = some c → ((∃ w, c.val = some w) ↔ c = .zero ∨ c = .one ∨ c = .minusOne) := by
    intro c _
    cases c <;> simp [FConst.val]
  simp only [ExprInfo.isSmallConst, isInt_flt h, Bool.false_or, Bool.or_false, Bool.or_eq_true, isFlt_iff h]
  constructor
  · rintro ((h | h) | h)
    · exact ⟨_, _, h, rfl⟩
    · exact ⟨_, _, h, rfl⟩
    · exact ⟨_, _, h, rfl⟩
  · rintro ⟨c, w, h, hw⟩
    rcases (this c h).mp ⟨w, hw⟩ with rfl | rfl | rfl
    · exact .inl (.inl h)
    · exact .inl (.inr h)
    · exact .inr h

/-- The action that puts a constant in place of an expression. -/
def FConst.act : FConst → Act
  | .zero => .expr .ReplaceWithZeroFloat
  | .one => .expr .ReplaceWithOneFloat
  | _ => .expr .ReplaceWithMinusOneFloat

theorem FConst.act_value {c : FConst} {w : FVal} (h : c.val = some w) (cpp : Bool) (v : FVal) :
    floatExprValue cpp v (some c.act) = some w := by
  cases c <;> cases h <;> rfl

/-- The actions offered for a floating-point expression that is not an l-value. -/
theorem ExprSite.mem_floatActs (e : ExprSite) (l : Lang) (o : Options) (k m : Nat)
    (hr : e.self.lvalue = false) (hf : e.self.ty.isFloat = true) (D : Act) :
    D ∈ (e.apply l o k m).group.acts ↔
      ((o.optimise = false ∨ e.insertionRedundant l .minus = false) ∧ D = .expr .InsertMinus) ∨
      ((o.optimise = false ∨ e.self.floatVal ≠ some .zero) ∧ D = .expr .ReplaceWithZeroFloat) ∨
      ((o.optimise = false ∨ e.self.floatVal ≠ some .one) ∧ D = .expr .ReplaceWithOneFloat) ∨
      ((o.optimise = false ∨ e.self.floatVal ≠ some .minusOne) ∧ D = .expr .ReplaceWithMinusOneFloat) := by
  have hb : e.self.ty.isBool = false := by
    revert hf; cases e.self.ty <;> simp [BTy.isFloat, BTy.isBool]
  have hs : e.self.ty.isSigned l = false := by
    revert hf; cases e.self.ty <;> simp [BTy.isFloat, BTy.isSigned]
  rw [e.group_acts]
  unfold ExprSite.clauses
  cases h3 : o.optimise <;>
    simp [hr, hf, hb, hs, BTy.isInteger, ExprInfo.isFlt, apply_ite (List.map _), mem_ite_nil] <;> grind

/-- A constant is still offered unless it is the value of the expression. -/
theorem floatConst_kept (hr : e.self.lvalue = false) (hf : e.self.ty.isFloat = true) {c : FConst} {w : FVal}
    (hc : c.val = some w) :
    ∃ K, StillExpr l o e k m K ∧ (K = none ∨ K = some c.act) ∧
      ∀ v, (∀ c w, e.self.floatVal = some c → c.val = some w → v = w) → floatExprValue l.cpp v K = some w := by
  by_cases hv : e.self.floatVal = some c
  · exact ⟨none, .none, .inl rfl, fun v h => by rw [h c w hv hc]; rfl⟩
  · refine ⟨some c.act, ?_, .inr rfl, fun v _ => FConst.act_value hc _ _⟩
    rintro x ⟨⟩
    rw [e.mem_floatActs l o k m hr hf]
    cases c <;> simp [FConst.act, FConst.val, hv] at hc ⊢

/-- The same for the whole of a binary expression. -/
theorem floatBinConst_kept (he : FloatExpr F s e) {c : FConst} {w : FVal} (hc : c.val = some w)
    (hop : ∀ a b, (F.bin a b s.op).isSome) :
    ∃ K, Still l o s e i j k m K ∧ ∀ a b, s.lhs.FloatValue F a → s.rhs.FloatValue F b →
      s.floatValue F l.cpp a b K = some w := by
  obtain ⟨K, hK, hn, hv⟩ := floatConst_kept (l := l) (o := o) (k := k) (m := m) he.rvalue (he.ty ▸ he.flt) hc
  refine ⟨K, fun x hx => .inr (hK x hx), fun a b ha hb => ?_⟩
  obtain ⟨v, hv'⟩ := Option.isSome_iff_exists.mp (hop a b)
  have := hv v (fun c w h1 h2 => he.const a b v ha hb hv' c w h1 h2)
  rcases hn with rfl | rfl
  · simpa [BinSite.floatValue, hv'] using this
  · cases c <;> simpa [BinSite.floatValue, hv', FConst.act] using this

theorem floatOp_some {op : BOp} (h : op = .add ∨ op = .sub ∨ op = .mul ∨ op = .div) (a b : FVal) :
    (F.bin a b op).isSome := by
  rcases h with rfl | rfl | rfl | rfl <;> rfl

theorem floatOp_arith {op : BOp} (h : op = .add ∨ op = .sub ∨ op = .mul ∨ op = .div) :
    op.isArithmetic = true := by
  rcases h with rfl | rfl | rfl | rfl <;> rfl

theorem floatLhs_kept (hop : s.op = .add ∨ s.op = .sub ∨ s.op = .mul ∨ s.op = .div) (he : FloatExpr F s e)
    (hz : (o.optimise && s.zeroOpOne) = false) :
    ∃ K, Still l o s e i j k m K ∧ ∀ a b, s.lhs.FloatValue F a → s.rhs.FloatValue F b →
      s.floatValue F l.cpp a b K = some a := by
  by_cases hc : s.lhs.isSmallConst = true
  · obtain ⟨c, w, h1, h2⟩ := (isSmallConst_flt (he.lhsTy ▸ he.flt)).mp hc
    obtain ⟨K, hK, hv⟩ := floatBinConst_kept (i := i) (j := j) (k := k) (m := m) (l := l) (o := o) he h2
      (floatOp_some hop)
    exact ⟨K, hK, fun a b ha hb => by rw [hv a b ha hb, ha.const c w h1 h2]⟩
  · refine ⟨some (.bin .ReplaceWithLHS), ?_, fun a b _ _ => rfl⟩
    rintro x ⟨⟩
    refine .inl ?_
    rw [kept_eq (floatOp_arith hop) hz]
    unfold BinSite.clauses BinSite.argClauses
    simp [(arith_not (floatOp_arith hop)).2, hc]

theorem floatRhs_kept (hop : s.op = .add ∨ s.op = .sub ∨ s.op = .mul ∨ s.op = .div) (he : FloatExpr F s e)
    (hz : (o.optimise && s.zeroOpOne) = false) :
    ∃ K, Still l o s e i j k m K ∧ ∀ a b, s.lhs.FloatValue F a → s.rhs.FloatValue F b →
      s.floatValue F l.cpp a b K = some b := by
  by_cases hc : s.rhs.isSmallConst = true
  · obtain ⟨c, w, h1, h2⟩ := (isSmallConst_flt (he.rhsTy ▸ he.flt)).mp hc
    obtain ⟨K, hK, hv⟩ := floatBinConst_kept (i := i) (j := j) (k := k) (m := m) (l := l) (o := o) he h2
      (floatOp_some hop)
    exact ⟨K, hK, fun a b ha hb => by rw [hv a b ha hb, hb.const c w h1 h2]⟩
  · refine ⟨some (.bin .ReplaceWithRHS), ?_, fun a b _ _ => rfl⟩
    rintro x ⟨⟩
    refine .inl ?_
    rw [kept_eq (floatOp_arith hop) hz]
    unfold BinSite.clauses BinSite.argClauses
    simp [(arith_not (floatOp_arith hop)).2, hc]

end

/-! ### Arithmetic with 0 and 1 -/

section
variable {F : FloatFmt}

theorem FVal.Equal.refl {v : FVal} (h : v ≠ .nan) : v.Equal v := by
  cases v <;> simp_all [FVal.Equal]

theorem number_signed {s : Bool} {q : Rat} (h0 : 0 ≤ q) (hq : F.fits q) (hne : q ≠ 0) :
    F.number (signed s q) = .fin s q := by
  cases s with
  | false =>
    have : ¬ q < 0 := by grind
    simp only [FloatFmt.number, signed, Bool.false_eq_true, if_false, this]
    exact F.round_fits _ _ hq
  | true =>
    have : -q < 0 := by grind
    have e : -(-q) = q := by grind
    simp only [FloatFmt.number, signed, if_true, this, e]
    exact F.round_fits _ _ hq

theorem signed_zero (s : Bool) : signed s 0 = 0 := by cases s <;> simp [signed] <;> grind

theorem signed_eq_zero {s : Bool} {q : Rat} : signed s q = 0 ↔ q = 0 := by
  cases s <;> simp [signed] <;> grind

theorem add_zero_equal (t : Bool) {v : FVal} (hv : F.Holds v) (hn : v ≠ .nan) :
    (F.add v (.fin t 0)).Equal v := by
  match v with
  | .nan => exact absurd rfl hn
  | .inf s => rfl
  | .fin s q =>
    by_cases h : q = 0
    · subst h
      simp [FloatFmt.add, signed_zero, Rat.add_zero, FVal.Equal]
    · have : signed s q + signed t 0 = signed s q := by rw [signed_zero]; grind
      simp only [FloatFmt.add, this, signed_eq_zero, h, if_false, number_signed hv.1 hv.2 h]
      rfl

theorem float_add_comm (a b : FVal) : F.add a b = F.add b a := by
  match a, b with
  | .nan, .nan | .nan, .inf _ | .nan, .fin .. | .inf _, .nan | .fin .., .nan | .inf _, .fin ..
  | .fin .., .inf _ => rfl
  | .inf s, .inf t => simp only [FloatFmt.add]; grind
  | .fin s p, .fin t q =>
    simp only [FloatFmt.add]
    rw [show signed t q + signed s p = signed s p + signed t q by grind]
    grind

theorem float_mul_comm (a b : FVal) : F.mul a b = F.mul b a := by
  have h : ∀ s t : Bool, (s != t) = (t != s) := by decide
  match a, b with
  | .nan, .nan | .nan, .inf _ | .nan, .fin .. | .inf _, .nan | .fin .., .nan => rfl
  | .inf s, .inf t => simp only [FloatFmt.mul, h]
  | .inf s, .fin t q => simp only [FloatFmt.mul]
  | .fin s q, .inf t => simp only [FloatFmt.mul]
  | .fin s p, .fin t q => simp only [FloatFmt.mul]; rw [h, Rat.mul_comm]

theorem mul_zero_equal (t : Bool) {v : FVal} (hn : F.mul v (.fin t 0) ≠ .nan) :
    (F.mul v (.fin t 0)).Equal (.fin false 0) := by
  match v with
  | .nan => exact absurd rfl hn
  | .inf s => simp [FloatFmt.mul] at hn
  | .fin s q =>
    simp [FloatFmt.mul, F.round_fits _ _ F.fits_zero, FVal.Equal, signed_zero]

theorem zero_div_equal (t : Bool) {v : FVal} (hn : F.div (.fin t 0) v ≠ .nan) :
    (F.div (.fin t 0) v).Equal (.fin false 0) := by
  match v with
  | .nan => exact absurd rfl hn
  | .inf s => simp [FloatFmt.div, FVal.Equal, signed_zero]
  | .fin s q =>
    by_cases h : q = 0
    · simp [FloatFmt.div, h] at hn
    · have : (0 : Rat) / q = 0 := by grind
      simp [FloatFmt.div, h, this, F.round_fits _ _ F.fits_zero, FVal.Equal, signed_zero]

theorem mul_one_exact {v : FVal} (hv : F.Holds v) : F.mul v (.fin false 1) = v := by
  match v with
  | .nan => rfl
  | .inf s => simp [FloatFmt.mul]
  | .fin s q => simp [FloatFmt.mul, Rat.mul_one, F.round_fits _ _ hv.2]

theorem div_one_exact {v : FVal} (hv : F.Holds v) : F.div v (.fin false 1) = v := by
  match v with
  | .nan => rfl
  | .inf s => simp [FloatFmt.div]
  | .fin s q =>
    have : q / 1 = q := by grind
    simp [FloatFmt.div, this, F.round_fits _ _ hv.2]

theorem add_nan {v : FVal} {t : Bool} : F.add v (.fin t 0) ≠ .nan → v ≠ .nan := by
  rintro h rfl
  exact h rfl

end

/-- A replacement that the rules drop yields the left operand, the right operand or zero, unless it
yields no number; exactly that, if neither operand is the constant 0. -/
theorem redundantArith_float {F : FloatFmt} {s : BinSite} (h1 : s.lhs.ty.isFloat = true)
    (h2 : s.rhs.ty.isFloat = true) {x : BOp} (hr : redundantArith s.lhs s.rhs x = true) (hx : x ≠ .rem) :
    (∀ a b r, s.lhs.FloatValue F a → s.rhs.FloatValue F b → F.bin a b x = some r →
      (r ≠ .nan → r.Equal a) ∧ (s.lhs.isZero = false → s.rhs.isZero = false → r = a)) ∨
    (∀ a b r, s.lhs.FloatValue F a → s.rhs.FloatValue F b → F.bin a b x = some r →
      (r ≠ .nan → r.Equal b) ∧ (s.lhs.isZero = false → s.rhs.isZero = false → r = b)) ∨
    (s.lhs.isZero = true ∨ s.rhs.isZero = true) ∧
      ∀ a b r, s.lhs.FloatValue F a → s.rhs.FloatValue F b → F.bin a b x = some r →
        r ≠ .nan → r.Equal (.fin false 0) := by
  unfold redundantArith at hr
  split at hr
  · cases hr
  split at hr
  · -- the right operand is 0
    rename_i h
    rw [Bool.and_eq_true] at h
    obtain ⟨hz, hop⟩ := h
    have hv := (isZero_flt h2).mp hz
    simp only [Bool.or_eq_true, beq_iff_eq] at hop
    rcases hop with ((((rfl | rfl) | rfl) | rfl) | rfl) | rfl
    · refine .inl fun a b r ha hb h => ?_
      cases hb.const _ _ hv rfl
      cases h
      exact ⟨fun hn => add_zero_equal false ha.holds (add_nan hn), fun _ h => by rw [hz] at h; cases h⟩
    · refine .inl fun a b r ha hb h => ?_
      cases hb.const _ _ hv rfl
      cases h
      exact ⟨fun hn => add_zero_equal true ha.holds (add_nan hn), fun _ h => by rw [hz] at h; cases h⟩
    · exact .inl fun a b r ha hb h => nomatch h
    · exact .inl fun a b r ha hb h => nomatch h
    · refine .inr (.inr ⟨.inr hz, fun a b r ha hb h hn => ?_⟩)
      cases hb.const _ _ hv rfl
      cases h
      exact mul_zero_equal false hn
    · exact absurd rfl hx
  split at hr
  · -- the right operand is 1
    rename_i h
    rw [Bool.and_eq_true] at h
    obtain ⟨hz, hop⟩ := h
    have hv := (isOne_flt h2).mp hz
    simp only [Bool.or_eq_true, beq_iff_eq] at hop
    refine .inl fun a b r ha hb h => ?_
    cases hb.const _ _ hv rfl
    rcases hop with rfl | rfl <;> cases h
    · rw [mul_one_exact ha.holds]
      exact ⟨FVal.Equal.refl, fun _ _ => rfl⟩
    · rw [div_one_exact ha.holds]
      exact ⟨FVal.Equal.refl, fun _ _ => rfl⟩
  split at hr
  · -- the left operand is 0
    rename_i h
    rw [Bool.and_eq_true] at h
    obtain ⟨hz, hop⟩ := h
    have hv := (isZero_flt h1).mp hz
    simp only [Bool.or_eq_true, beq_iff_eq] at hop
    rcases hop with ((((rfl | rfl) | rfl) | rfl) | rfl) | rfl
    · refine .inr (.inl fun a b r ha hb h => ?_)
      cases ha.const _ _ hv rfl
      cases h
      rw [float_add_comm]
      exact ⟨fun hn => add_zero_equal false hb.holds (add_nan hn), fun h _ => by rw [hz] at h; cases h⟩
    · exact .inl fun a b r ha hb h => nomatch h
    · exact .inl fun a b r ha hb h => nomatch h
    · refine .inr (.inr ⟨.inl hz, fun a b r ha hb h hn => ?_⟩)
      cases ha.const _ _ hv rfl
      cases h
      rw [float_mul_comm] at hn ⊢
      exact mul_zero_equal false hn
    · exact absurd rfl hx
    · refine .inr (.inr ⟨.inl hz, fun a b r ha hb h hn => ?_⟩)
      cases ha.const _ _ hv rfl
      cases h
      exact zero_div_equal false hn
  split at hr
  · -- the left operand is 1
    rename_i h
    rw [Bool.and_eq_true] at h
    obtain ⟨hz, hop⟩ := h
    have hv := (isOne_flt h1).mp hz
    simp only [beq_iff_eq] at hop
    subst hop
    refine .inr (.inl fun a b r ha hb h => ?_)
    cases ha.const _ _ hv rfl
    cases h
    rw [float_mul_comm, mul_one_exact hb.holds]
    exact ⟨FVal.Equal.refl, fun _ _ => rfl⟩
  · cases hr

/-- The constant that an operator yields on 0 and 1. -/
def onFloatZeroOne : BOp → FConst
  | .add => .one
  | .sub => .minusOne
  | _ => .zero

theorem float_zero_one (F : FloatFmt) {x : BOp} {r : FVal}
    (h : F.bin (.fin false 0) (.fin false 1) x = some r) : (onFloatZeroOne x).val = some r := by
  have h1 : ((0 : Rat) + 1) = 1 := by grind
  have h2 : ((0 : Rat) + -1) = -1 := by grind
  have h3 : (-(-1) : Rat) = 1 := by grind
  have h4 : (0 : Rat) / 1 = 0 := by grind
  have h5 : ¬ ((1 : Rat) < 0) := by grind
  have h6 : (-1 : Rat) < 0 := by grind
  have h7 : ¬ ((1 : Rat) = 0) := by grind
  have h8 : ¬ ((-1 : Rat) = 0) := by grind
  cases x <;> simp [FloatFmt.bin, FloatFmt.add, FloatFmt.mul, FloatFmt.div, FVal.neg, signed, h1, h2, h3, h4,
    h5, h6, h7, h8, FloatFmt.number, F.round_fits _ _ F.fits_zero, F.round_fits _ _ F.fits_one] at h <;>
  simp [onFloatZeroOne, FConst.val, h]

/-- C82, as far as it holds: unless it yields no number, the dropped mutant yields a number that is equal
(`==`) to what a certain kept mutant or the original yields; and the very same value, not-a-number
included, if neither operand is the constant 0. -/
theorem C82_dropped_partial (F : FloatFmt) (l : Lang) (o o' : Options) (s : BinSite) (e : ExprSite)
    (i j k m i' j' : Nat) (ho : o.optimise = false)
    (hop : s.op = .add ∨ s.op = .sub ∨ s.op = .mul ∨ s.op = .div) (he : FloatExpr F s e)
    (D : Act) (hD : D ∈ s.kept l o i' j') (hD' : D ∉ s.kept l o' i j) :
    ∃ K, Still l o' s e i j k m K ∧ ∀ a b r, s.lhs.FloatValue F a → s.rhs.FloatValue F b →
      s.floatValue F l.cpp a b (some D) = some r →
      ∃ w, s.floatValue F l.cpp a b K = some w ∧ (r ≠ .nan → r.Equal w) ∧
        (s.lhs.isZero = false → s.rhs.isZero = false → r = w) := by
  have hopa := floatOp_arith hop
  have hl := he.lhsTy ▸ he.flt
  have hr := he.rhsTy ▸ he.flt
  have same : ∀ K, Still l o' s e i j k m K → (∀ a b r, s.lhs.FloatValue F a → s.rhs.FloatValue F b →
      s.floatValue F l.cpp a b (some D) = some r → s.floatValue F l.cpp a b K = some r) →
      ∃ K, Still l o' s e i j k m K ∧ ∀ a b r, s.lhs.FloatValue F a → s.rhs.FloatValue F b →
        s.floatValue F l.cpp a b (some D) = some r →
        ∃ w, s.floatValue F l.cpp a b K = some w ∧ (r ≠ .nan → r.Equal w) ∧
          (s.lhs.isZero = false → s.rhs.isZero = false → r = w) :=
    fun K hK h => ⟨K, hK, fun a b r ha hb hd => ⟨r, h a b r ha hb hd, FVal.Equal.refl, fun _ _ => rfl⟩⟩
  rw [kept_eq hopa (by simp [ho]), ho] at hD
  have hsrc : (∃ x ∈ s.candidates, D = .bin x.action ∧ x ≠ s.op ∧ s.isValid x = true) ∨
      D = .bin .ReplaceWithLHS ∨ D = .bin .ReplaceWithRHS := by
    unfold BinSite.clauses BinSite.argClauses BinSite.replacements at hD
    simp [(arith_not hopa).2] at hD
    grind
  by_cases hz : (o'.optimise && s.zeroOpOne) = true
  · -- the visitor adds no mutation for the operator
    rw [Bool.and_eq_true] at hz
    have hz' := hz.2
    unfold BinSite.zeroOpOne at hz'
    rw [Bool.and_eq_true, isZero_flt hl, isOne_flt hr] at hz'
    have fin : ∀ (c : FConst), (∀ r, s.floatValue F l.cpp (.fin false 0) (.fin false 1) (some D) = some r →
        c.val = some r) → c ≠ .other → ∃ K, Still l o' s e i j k m K ∧
        ∀ a b r, s.lhs.FloatValue F a → s.rhs.FloatValue F b →
          s.floatValue F l.cpp a b (some D) = some r → s.floatValue F l.cpp a b K = some r := by
      intro c h hc
      obtain ⟨w, hw⟩ : ∃ w, c.val = some w := by cases c <;> simp_all [FConst.val]
      obtain ⟨K, hK, hKv⟩ := floatBinConst_kept (i := i) (j := j) (k := k) (m := m) (l := l) (o := o') he hw
        (floatOp_some hop)
      refine ⟨K, hK, fun a b r ha hb hd => ?_⟩
      rw [hKv a b ha hb]
      cases ha.const _ _ hz'.1 rfl
      cases hb.const _ _ hz'.2 rfl
      rw [← hw, h r hd]
    rcases hsrc with ⟨x, hx, rfl, _, _⟩ | rfl | rfl
    · have hch := s.candidates_new x hx
      obtain ⟨K, hK, h⟩ := fin (onFloatZeroOne x) (fun r h => by
        simp only [BinSite.floatValue, hch] at h
        exact float_zero_one F h) (by cases x <;> simp [onFloatZeroOne])
      exact same K hK h
    · obtain ⟨K, hK, h⟩ := fin .zero (fun r h => h) nofun
      exact same K hK h
    · obtain ⟨K, hK, h⟩ := fin .one (fun r h => h) nofun
      exact same K hK h
  · have hz : (o'.optimise && s.zeroOpOne) = false := by simpa using hz
    rcases hsrc with ⟨x, hx, rfl, hne, hval⟩ | rfl | rfl
    · have hch := s.candidates_new x hx
      have hred : redundantArith s.lhs s.rhs x = true := by
        cases hr : redundantArith s.lhs s.rhs x with
        | true => rfl
        | false =>
          refine absurd ?_ hD'
          rw [kept_eq hopa hz]
          unfold BinSite.clauses BinSite.replacements
          simp only [List.map_append, List.map_map, List.mem_append, List.mem_map,
            List.mem_filter]
          refine .inl ⟨x, ⟨hx, ?_⟩, rfl⟩
          simp [hne, hval, BinSite.isRedundant, hr, (candidates_arith hopa x hx).2]
      have hrem : x ≠ .rem := by
        rintro rfl
        simp [BinSite.isValid, hl] at hval
      have hval' : ∀ a b, s.floatValue F l.cpp a b (some (.bin x.action)) = F.bin a b x := by
        intro a b
        simp only [BinSite.floatValue, hch]
      rcases redundantArith_float (F := F) hl hr hred hrem with h | h | ⟨hzero, h⟩
      · obtain ⟨K, hK, hKv⟩ := floatLhs_kept (i := i) (j := j) (k := k) (m := m) (l := l) hop he hz
        refine ⟨K, hK, fun a b r ha hb hd => ⟨a, hKv a b ha hb, ?_⟩⟩
        rw [hval'] at hd
        exact h a b r ha hb hd
      · obtain ⟨K, hK, hKv⟩ := floatRhs_kept (i := i) (j := j) (k := k) (m := m) (l := l) hop he hz
        refine ⟨K, hK, fun a b r ha hb hd => ⟨b, hKv a b ha hb, ?_⟩⟩
        rw [hval'] at hd
        exact h a b r ha hb hd
      · obtain ⟨K, hK, hKv⟩ := floatBinConst_kept (i := i) (j := j) (k := k) (m := m) (l := l) (o := o') he
          (c := .zero) rfl (floatOp_some hop)
        refine ⟨K, hK, fun a b r ha hb hd => ⟨_, hKv a b ha hb, ?_⟩⟩
        rw [hval'] at hd
        refine ⟨h a b r ha hb hd, fun h1 h2 => ?_⟩
        rw [h1, h2] at hzero
        simp at hzero
    · obtain ⟨K, hK, hKv⟩ := floatLhs_kept (i := i) (j := j) (k := k) (m := m) (l := l) hop he hz
      exact same K hK fun a b r ha hb hd => (hKv a b ha hb).trans hd
    · obtain ⟨K, hK, hKv⟩ := floatRhs_kept (i := i) (j := j) (k := k) (m := m) (l := l) hop he hz
      exact same K hK fun a b r ha hb hd => (hKv a b ha hb).trans hd

/-! ### Inserted operators and constants, and unary minus -/

/-- C82: an operator that is not inserted, or a constant that is not put in place of an expression, yields
a number that is equal (`==`) to what a certain kept mutant or the original yields. -/
theorem C82_insertion (F : FloatFmt) (l : Lang) (o o' : Options) (e : ExprSite)
    (k m k' m' : Nat) (ho : o.optimise = false)
    (hr : e.self.lvalue = false) (hf : e.self.ty.isFloat = true)
    (hb : e.beforeBinaryRedundant l = false) (hla : e.beforeLogicalArgRedundant l = false)
    (D : Act) (hD : D ∈ (e.apply l o k' m').group.acts)
    (hD' : D ∉ (e.apply l o' k m).group.acts) :
    ∃ K, StillExpr l o' e k m K ∧ ∀ v r, e.self.FloatValue F v →
      floatExprValue l.cpp v (some D) = some r →
      ∃ w, floatExprValue l.cpp v K = some w ∧ r.Equal w ∧
        (e.self.floatVal ≠ some .zero ∨ D ≠ .expr .InsertMinus → r = w) := by
  have fin : ∀ {c : FConst} {w : FVal}, c.val = some w →
      (∀ v r, e.self.FloatValue F v → floatExprValue l.cpp v (some D) = some r →
        r.Equal w ∧ (e.self.floatVal ≠ some .zero ∨ D ≠ .expr .InsertMinus → r = w)) →
      ∃ K, StillExpr l o' e k m K ∧ ∀ v r, e.self.FloatValue F v →
        floatExprValue l.cpp v (some D) = some r →
        ∃ w, floatExprValue l.cpp v K = some w ∧ r.Equal w ∧
          (e.self.floatVal ≠ some .zero ∨ D ≠ .expr .InsertMinus → r = w) := by
    intro c w hc h
    obtain ⟨K, hK, -, hKv⟩ := floatConst_kept (l := l) (o := o') (k := k) (m := m) hr hf hc
    exact ⟨K, hK, fun v r h1 h2 => ⟨w, hKv v h1.const, h v r h1 h2⟩⟩
  rw [e.mem_floatActs l _ _ _ hr hf] at hD hD'
  have hs : e.self.ty.isSigned l = false := by
    revert hf; cases e.self.ty <;> simp [BTy.isFloat, BTy.isSigned]
  rcases hD with ⟨_, rfl⟩ | ⟨_, rfl⟩ | ⟨_, rfl⟩ | ⟨_, rfl⟩
  · simp [ExprSite.insertionRedundant, hb, hla, ExprSite.minusRedundant, isInt_flt hf, hs, isFlt_iff hf] at hD'
    obtain ⟨_, h⟩ := hD'
    have h : e.self.floatVal = some .zero ∨ e.self.floatVal = some .one ∨ e.self.floatVal = some .minusOne := by
      grind
    rcases h with h | h | h
    · refine fin (c := .zero) rfl fun v r hv hr => ?_
      cases hv.const _ _ h rfl
      cases hr
      refine ⟨(signed_zero true).trans (signed_zero false).symm, ?_⟩
      rintro (h' | h')
      · exact absurd h h'
      · exact absurd rfl h'
    · refine fin (c := .minusOne) rfl fun v r hv hr => ?_
      cases hv.const _ _ h rfl
      cases hr
      exact ⟨.refl nofun, fun _ => rfl⟩
    · refine fin (c := .one) rfl fun v r hv hr => ?_
      cases hv.const _ _ h rfl
      cases hr
      exact ⟨.refl nofun, fun _ => rfl⟩
  · refine fin (c := .zero) rfl fun v r _ hr => ?_
    cases hr
    exact ⟨.refl nofun, fun _ => rfl⟩
  · refine fin (c := .one) rfl fun v r _ hr => ?_
    cases hr
    exact ⟨.refl nofun, fun _ => rfl⟩
  · refine fin (c := .minusOne) rfl fun v r _ hr => ?_
    cases hr
    exact ⟨.refl nofun, fun _ => rfl⟩

/-- `e` is the whole expression of `s`, which is a floating-point number with a minus sign. -/
structure FloatMinus (F : FloatFmt) (l : Lang) (s : UnSite) (e : ExprSite) : Prop where
  self : e.self = s.self
  op : s.op = .minus
  rvalue : s.self.lvalue = false
  subRvalue : s.sub.lvalue = false
  flt : s.sub.ty.isFloat = true
  ty : s.self.ty = s.sub.ty
  notBinary : e.binOp = none
  notArg : e.beforeLogicalArgRedundant l = false
  /-- if clang has determined a value that is told apart, it is the value -/
  const : ∀ x, s.sub.FloatValue F x → ∀ c v, s.self.floatVal = some c → c.val = some v → x.neg = v

/-- The value of the expression when an action is applied (`none`: the original). -/
def UnSite.floatValue (cpp : Bool) (s : UnSite) (x : FVal) : Option Act → Option FVal
  | some (.un y) =>
    match y.change with
    | .op o => x.un o
    | .operand => some x
  | K => (x.un s.op).bind fun v => floatExprValue cpp v K

/-- The actions offered for a minus sign. -/
theorem UnSite.mem_floatActs (s : UnSite) (l : Lang) (o : Options) (i j : Nat) (hop : s.op = .minus)
    (hr : s.self.lvalue = false) (hsr : s.sub.lvalue = false) (hf : s.sub.ty.isFloat = true) (D : Act) :
    D ∈ (s.apply l o i j).group.acts ↔
      (D = .un .ReplaceWithLNot ∧ (o.optimise = false ∨ s.isRedundant .lnot = false)) ∨
      (D = .un .ReplaceWithOperand ∧ o.optimise = false) := by
  have h3 : UOp.lnot.action = .ReplaceWithLNot := rfl
  have hv : ∀ op, s.isValid op = true ↔
      ¬ (op = .preInc ∨ op = .preDec ∨ op = .postInc ∨ op = .postDec ∨ op = .not) := by
    intro op
    unfold UnSite.isValid
    simp only [hsr, hr, hf, hop]
    cases op <;> simp
  rw [s.group_acts]
  unfold UnSite.clauses UnSite.replacements
  simp only [List.map_append, List.map_map, List.mem_append, List.mem_map, List.mem_filter,
    unaryCandidates, List.mem_cons, List.not_mem_nil, or_false, Function.comp]
  constructor
  · rintro (⟨op, ⟨hc, hc'⟩, rfl⟩ | ⟨a, ha, rfl⟩)
    · have hv' := hv op
      rcases hc with rfl | rfl | rfl | rfl | rfl | rfl | rfl <;> simp [hop] at hv' hc' <;> grind
    · rw [mem_ite_nil] at ha
      simp [hop, UOp.isSelfInverse] at ha
      grind
  · rintro (⟨rfl, h⟩ | ⟨rfl, h⟩)
    · refine .inl ⟨.lnot, ⟨by simp, ?_⟩, by rw [h3]⟩
      have := (hv .lnot).2 (by simp)
      grind
    · refine .inr ⟨(.arg .arg, .ReplaceWithOperand), ?_, rfl⟩
      rw [mem_ite_nil]
      simp [h]

/-- C82: what is dropped for a minus sign before a floating-point number yields the same as a certain kept
mutant or the original; if clang knows that it is a minus sign before -0.0, the other zero. -/
theorem C82_minus (F : FloatFmt) (l : Lang) (o o' : Options) (s : UnSite) (e : ExprSite)
    (i j k m i' j' : Nat) (ho : o.optimise = false) (he : FloatMinus F l s e)
    (D : Act) (hD : D ∈ s.kept l o i' j') (hD' : D ∉ s.kept l o' i j) :
    ∃ K, (∀ y, K = some y → y ∈ s.kept l o' i j ∨ y ∈ (e.apply l o' k m).group.acts) ∧
      ∀ x r, s.sub.FloatValue F x → s.floatValue l.cpp x (some D) = some r →
        ∃ w, s.floatValue l.cpp x K = some w ∧
          (r = w ∨ s.self.floatVal = some .zero ∧ r.Equal w) := by
  have hsf : e.self.ty.isFloat = true := by rw [he.self, he.ty]; exact he.flt
  have hsr : e.self.lvalue = false := by rw [he.self]; exact he.rvalue
  -- a constant
  have fin : ∀ {c : FConst} {w : FVal}, c.val = some w →
      (∀ x r, s.sub.FloatValue F x → s.floatValue l.cpp x (some D) = some r → r = w) →
      ∃ K, (∀ y, K = some y → y ∈ s.kept l o' i j ∨ y ∈ (e.apply l o' k m).group.acts) ∧
        ∀ x r, s.sub.FloatValue F x → s.floatValue l.cpp x (some D) = some r →
          ∃ w, s.floatValue l.cpp x K = some w ∧
            (r = w ∨ s.self.floatVal = some .zero ∧ r.Equal w) := by
    intro c w hc h
    obtain ⟨K, hK, hn, hKv⟩ := floatConst_kept (l := l) (o := o') (k := k) (m := m) hsr hsf hc
    refine ⟨K, fun y hy => .inr (hK y hy), fun x r hx hd => ⟨w, ?_, .inl (h x r hx hd)⟩⟩
    have := hKv x.neg (by rw [he.self]; exact he.const x hx)
    rcases hn with rfl | rfl
    · simpa [UnSite.floatValue, he.op, FVal.un] using this
    · cases c <;> simpa [UnSite.floatValue, he.op, FVal.un, FConst.act] using this
  unfold UnSite.kept UnSite.handle at hD hD'
  rw [ho] at hD
  simp only [Bool.false_and, Bool.false_eq_true, if_false, List.flatMap_cons, List.flatMap_nil,
    List.append_nil, s.mem_floatActs l _ _ _ he.op he.rvalue he.subRvalue he.flt, ho] at hD
  have lnot : ∀ x r, s.floatValue l.cpp x (some (.un .ReplaceWithLNot)) = some r → x.un .lnot = some r :=
    fun x r h => h
  by_cases hone : s.sub.floatVal = some .one
  · rcases hD with ⟨rfl, _⟩ | ⟨rfl, _⟩
    · refine fin (c := .zero) rfl fun x r hx hd => ?_
      cases hx.const _ _ hone rfl
      have := lnot _ _ hd
      simp [FVal.un, FVal.ofBool] at this
      exact this.symm
    · refine fin (c := .one) rfl fun x r hx hd => ?_
      cases hx.const _ _ hone rfl
      cases hd
      rfl
  · have hcu : s.constUnary = false := by
      have := isOne_flt he.flt
      simp only [UnSite.constUnary, he.op]
      cases h : s.sub.isOne with
      | false => rfl
      | true => exact absurd (this.mp h) hone
    rw [hcu] at hD'
    simp only [Bool.and_false, Bool.false_eq_true, if_false, List.flatMap_cons, List.flatMap_nil,
      List.append_nil, s.mem_floatActs l _ _ _ he.op he.rvalue he.subRvalue he.flt] at hD'
    rcases hD with ⟨rfl, _⟩ | ⟨rfl, _⟩
    · have hz : s.sub.floatVal = some .zero := by
        simp [UnSite.isRedundant, isInt_flt he.flt, isFlt_iff he.flt, hone] at hD'
        exact hD'.2
      refine fin (c := .one) rfl fun x r hx hd => ?_
      cases hx.const _ _ hz rfl
      have := lnot _ _ hd
      simp [FVal.un, FVal.ofBool] at this
      exact this.symm
    · -- the operand is the expression with another minus sign
      have hneg : ∀ x : FVal, x.neg.neg = x := fun x => by cases x <;> simp [FVal.neg]
      have inv : ∀ x w, x = FVal.neg w → ∀ r, s.floatValue l.cpp x (some (.un .ReplaceWithOperand)) = some r →
          r = w.neg := by
        rintro x w rfl r h
        cases h
        rfl
      by_cases h1 : s.self.floatVal = some .one
      · refine fin (c := .minusOne) rfl fun x r hx hd => ?_
        exact inv x (.fin false 1) (by rw [← he.const x hx _ _ h1 rfl, hneg]) r hd
      by_cases h2 : s.self.floatVal = some .minusOne
      · refine fin (c := .one) rfl fun x r hx hd => ?_
        exact inv x (.fin true 1) (by rw [← he.const x hx _ _ h2 rfl, hneg]) r hd
      by_cases h0 : s.self.floatVal = some .zero
      · refine ⟨none, nofun, fun x r hx hd => ⟨x.neg, by simp [UnSite.floatValue, he.op, FVal.un,
          floatExprValue], .inr ⟨h0, ?_⟩⟩⟩
        rw [inv x (.fin false 0) (by rw [← he.const x hx _ _ h0 rfl, hneg]) r hd, he.const x hx _ _ h0 rfl]
        exact (signed_zero true).trans (signed_zero false).symm
      · refine ⟨some (.expr .InsertMinus), ?_, fun x r hx hd => ⟨x, ?_, ?_⟩⟩
        · rintro y ⟨⟩
          refine .inr ?_
          rw [e.mem_floatActs l _ _ _ hsr hsf]
          refine .inl ⟨.inr ?_, rfl⟩
          have hs : e.self.ty.isSigned l = false := by
            revert hsf; cases e.self.ty <;> simp [BTy.isFloat, BTy.isSigned]
          have hnb : e.beforeBinaryRedundant l = false := by
            unfold ExprSite.beforeBinaryRedundant; rw [he.notBinary]
          rw [← he.self] at h0 h1 h2
          simp [ExprSite.insertionRedundant, hnb, he.notArg, ExprSite.minusRedundant, isInt_flt hsf, hs,
            ExprInfo.isFlt, h0, h1, h2]
        · simp [UnSite.floatValue, he.op, FVal.un, floatExprValue, EAct.change, hneg]
        · cases hd
          exact .inl rfl

/-! ### What does not hold -/

namespace Sample

/-- `x + 0.0`, and the whole expression. -/
def dblAdd (c : FConst) : BinSite := { bin .add dblVal (dblConst c) with resTy := .double }
/-- `x * 0.0`. -/
def dblMul (c : FConst) : BinSite := { dblAdd c with op := .mul }

/-- Multiples of 1/4, rounded towards zero. -/
def quarters : FloatFmt where
  fits q := ∃ n : Nat, q * 4 = n
  round s q := .fin s (((q * 4).floor.toNat : Rat) / 4)
  down := false
  fits_zero := ⟨0, by grind⟩
  fits_one := ⟨4, by grind⟩
  round_fits := by
    rintro s q ⟨n, h⟩
    rw [h, ← Rat.intCast_natCast n, Rat.floor_intCast, Int.toNat_natCast, ← h]
    congr 1
    grind

end Sample

/-- What is offered for `x + 0.0` and `x * 0.0` with optimisation. -/
theorem dbl_kept :
    (Sample.dblAdd .zero).kept Sample.cpp Sample.opts 0 0 = [.bin .ReplaceWithDiv, .bin .ReplaceWithLHS] ∧
    (Sample.dblMul .zero).kept Sample.cpp Sample.opts 0 0 = [.bin .ReplaceWithDiv, .bin .ReplaceWithLHS] ∧
    ((Sample.expr Sample.dblVal).apply Sample.cpp Sample.opts 0 0).group.acts =
      [.expr .InsertMinus, .expr .ReplaceWithZeroFloat, .expr .ReplaceWithOneFloat,
        .expr .ReplaceWithMinusOneFloat] := by
  decide +kernel

/-- C82 does not hold of results that are not numbers: `x * 0.0` is dropped for `x + 0.0`, and is not a
number if `x` is infinite; the original and everything kept are. -/
theorem C82_false_nan (F : FloatFmt) :
    let s := Sample.dblAdd .zero
    let e := Sample.expr Sample.dblVal
    FloatExpr F s e ∧ .bin .ReplaceWithMul ∈ s.kept Sample.cpp Sample.noopt 0 0 ∧
    .bin .ReplaceWithMul ∉ s.kept Sample.cpp Sample.opts 0 0 ∧
    s.lhs.FloatValue F (.inf false) ∧ s.rhs.FloatValue F (.fin false 0) ∧
    s.floatValue F true (.inf false) (.fin false 0) (some (.bin .ReplaceWithMul)) = some .nan ∧
    ∀ K, Still Sample.cpp Sample.opts s e 0 0 0 0 K →
      s.floatValue F true (.inf false) (.fin false 0) K ≠ some .nan := by
  intro s e
  refine ⟨⟨rfl, rfl, rfl, rfl, rfl, fun _ _ _ _ _ _ _ _ h => nomatch h⟩, by decide +kernel, by decide +kernel, ⟨trivial, fun _ _ h => nomatch h⟩, ⟨?_, ?_⟩,
    by simp [BinSite.floatValue, BAct.change, FloatFmt.bin, FloatFmt.mul], ?_⟩
  · exact ⟨by grind, F.fits_zero⟩
  · rintro c w ⟨⟩ ⟨⟩
    rfl
  · intro K hK
    cases K with
    | none => exact nofun
    | some K =>
      have := hK K rfl
      rw [dbl_kept.1, dbl_kept.2.2] at this
      simp only [List.mem_cons, List.not_mem_nil, or_false] at this
      rcases this with (rfl | rfl) | rfl | rfl | rfl | rfl <;>
        simp [BinSite.floatValue, BAct.change, EAct.change, s, Sample.dblAdd, Sample.bin, FloatFmt.bin,
          FloatFmt.add, FloatFmt.div, floatExprValue, FVal.un, FVal.neg, Lit.float?]

/-- Nor does it hold of the signs of zeros: `x + 0.0` is dropped for `x * 0.0`; it is 0.0 for -0.0, and 1.0
for 1.0, which nothing that is kept is, nor the original. -/
theorem C82_false_sign (F : FloatFmt) (hd : F.down = false) :
    let s := Sample.dblMul .zero
    let e := Sample.expr Sample.dblVal
    FloatExpr F s e ∧ .bin .ReplaceWithAdd ∈ s.kept Sample.cpp Sample.noopt 0 0 ∧
    .bin .ReplaceWithAdd ∉ s.kept Sample.cpp Sample.opts 0 0 ∧
    ∀ K, Still Sample.cpp Sample.opts s e 0 0 0 0 K →
      ∃ a r, s.lhs.FloatValue F a ∧ s.rhs.FloatValue F (.fin false 0) ∧
        s.floatValue F true a (.fin false 0) (some (.bin .ReplaceWithAdd)) = some r ∧
        s.floatValue F true a (.fin false 0) K ≠ some r := by
  intro s e
  have hr : s.rhs.FloatValue F (.fin false 0) :=
    ⟨⟨by grind, F.fits_zero⟩, by rintro c w ⟨⟩ ⟨⟩; rfl⟩
  have ha : s.lhs.FloatValue F (.fin true 0) := ⟨⟨by grind, F.fits_zero⟩, fun _ _ h => nomatch h⟩
  have hb : s.lhs.FloatValue F (.fin false 1) := ⟨⟨by grind, F.fits_one⟩, fun _ _ h => nomatch h⟩
  have va : s.floatValue F true (.fin true 0) (.fin false 0) (some (.bin .ReplaceWithAdd)) =
      some (.fin false 0) := by
    simp [BinSite.floatValue, BAct.change, FloatFmt.bin, FloatFmt.add, signed_zero, hd, Rat.add_zero]
  have h10 : ¬ ((1 : Rat) = 0) := by grind
  have h1n : ¬ ((1 : Rat) < 0) := by grind
  have vb : s.floatValue F true (.fin false 1) (.fin false 0) (some (.bin .ReplaceWithAdd)) =
      some (.fin false 1) := by
    simp [BinSite.floatValue, BAct.change, FloatFmt.bin, FloatFmt.add, signed, FloatFmt.number,
      Rat.add_zero, h10, h1n, F.round_fits _ _ F.fits_one]
  refine ⟨⟨rfl, rfl, rfl, rfl, rfl, fun _ _ _ _ _ _ _ _ h => nomatch h⟩, by decide +kernel, by decide +kernel, fun K hK => ?_⟩
  suffices h : s.floatValue F true (.fin true 0) (.fin false 0) K ≠ some (.fin false 0) ∨
      s.floatValue F true (.fin false 1) (.fin false 0) K ≠ some (.fin false 1) by
    rcases h with h | h
    · exact ⟨_, _, ha, hr, va, h⟩
    · exact ⟨_, _, hb, hr, vb, h⟩
  cases K with
  | none =>
    left
    simp [BinSite.floatValue, s, Sample.dblMul, FloatFmt.bin, FloatFmt.mul, floatExprValue,
      F.round_fits _ _ F.fits_zero]
  | some K =>
    have := hK K rfl
    rw [dbl_kept.2.1, dbl_kept.2.2] at this
    simp only [List.mem_cons, List.not_mem_nil, or_false] at this
    rcases this with (rfl | rfl) | rfl | rfl | rfl | rfl
    · left; simp [BinSite.floatValue, BAct.change, FloatFmt.bin, FloatFmt.div]
    · left; simp [BinSite.floatValue, BAct.change]
    · right
      simp [BinSite.floatValue, EAct.change, s, Sample.dblMul, FloatFmt.bin, FloatFmt.mul,
        floatExprValue, FVal.un, FVal.neg, F.round_fits _ _ F.fits_zero]
    · right
      simp [BinSite.floatValue, EAct.change, s, Sample.dblMul, FloatFmt.bin, FloatFmt.mul,
        floatExprValue, Lit.float?]
    · left
      simp [BinSite.floatValue, EAct.change, s, Sample.dblMul, FloatFmt.bin, FloatFmt.mul,
        floatExprValue, Lit.float?]
    · left
      simp [BinSite.floatValue, EAct.change, s, Sample.dblMul, FloatFmt.bin, FloatFmt.mul,
        floatExprValue, Lit.float?]

/-- Beside C82: `x + 1.0` in numbers that are multiples of a quarter; `x * 1.0` is dropped. -/
example : FloatExpr Sample.quarters (Sample.dblAdd .one) (Sample.expr Sample.dblVal) ∧
    .bin .ReplaceWithMul ∈ (Sample.dblAdd .one).kept Sample.cpp Sample.noopt 0 0 ∧
    .bin .ReplaceWithMul ∉ (Sample.dblAdd .one).kept Sample.cpp Sample.opts 0 0 ∧
    (Sample.dblAdd .one).lhs.FloatValue Sample.quarters (.fin true (3 / 4)) ∧
    (Sample.dblAdd .one).rhs.FloatValue Sample.quarters (.fin false 1) := by
  refine ⟨⟨rfl, rfl, rfl, rfl, rfl, fun _ _ _ _ _ _ _ _ h => nomatch h⟩, by decide +kernel, by decide +kernel,
    ⟨⟨by grind, 3, by grind⟩, fun _ _ h => nomatch h⟩, ⟨⟨by grind, 4, by grind⟩, ?_⟩⟩
  rintro c w ⟨⟩ ⟨⟩
  rfl

/-- Beside C82: a minus sign before a variable; its removal is dropped. -/
example :
    let s := Sample.un .minus Sample.dblVal Sample.dblVal
    FloatMinus Sample.quarters Sample.cpp s (Sample.expr Sample.dblVal) ∧
    .un .ReplaceWithOperand ∈ s.kept Sample.cpp Sample.noopt 0 0 ∧
    .un .ReplaceWithOperand ∉ s.kept Sample.cpp Sample.opts 0 0 :=
  ⟨⟨rfl, rfl, rfl, rfl, rfl, rfl, rfl, rfl, fun _ _ _ _ h => nomatch h⟩, by decide +kernel, by decide +kernel⟩

/-- Beside C82: no minus sign is put before the constant 1.0. -/
example : (Sample.dblConst .one).ty.isFloat = true ∧
    .expr .InsertMinus ∈
      ((Sample.expr (Sample.dblConst .one)).apply Sample.cpp Sample.noopt 0 0).group.acts ∧
    .expr .InsertMinus ∉
      ((Sample.expr (Sample.dblConst .one)).apply Sample.cpp Sample.opts 0 0).group.acts := by
  decide +kernel

end Dredd
