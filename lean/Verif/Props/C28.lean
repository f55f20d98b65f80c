/-
C28: arithmetic, shift and bitwise operators: what optimisation drops equals
the original or something kept.
-/
import Verif.Props.C25
import Verif.Proofs.Integer
import Verif.Model.Visitor

namespace Dredd

/-- The operators considered here. -/
def BOp.isArithmetic : BOp → Bool
  | .add | .sub | .mul | .div | .rem | .shl | .shr | .and | .or | .xor => true
  | _ => false

/-- Possible values of the operands: values of their types and, if clang has
determined a value, that value. -/
structure BinSite.Operands (P : Platform) (l : Lang) (s : BinSite) (a b : Int) : Prop where
  lhs : P.Holds l s.lhs.ty a
  rhs : P.Holds l s.rhs.ty b
  lhsConst : ∀ v, s.lhs.intVal = some v → a = v
  rhsConst : ∀ v, s.rhs.intVal = some v → b = v

/-- `e` is the whole expression of `s`, which computes with integers. -/
structure IntExpr (P : Platform) (l : Lang) (s : BinSite) (e : ExprSite) : Prop where
  ty : e.self.ty = s.resTy
  rvalue : e.self.lvalue = false
  int : s.resTy.isInteger = true
  notBool : s.resTy.isBool = false
  lhsTy : s.lhs.ty = s.resTy
  rhsTy : s.op ≠ .shl → s.op ≠ .shr → s.rhs.ty = s.resTy
  rhsInt : s.rhs.ty.isInteger = true
  const : ∀ v, e.self.intVal = some v → ∀ a b w, s.Operands P l a b →
    P.bin l s.resTy a b s.op = some w → w = v

/-- The value of the expression when an action is applied (`none`: the
original), where defined. -/
def BinSite.value (P : Platform) (l : Lang) (s : BinSite) (a b : Int) : Option Act → Option Int
  | none => P.bin l s.resTy a b s.op
  | some (.bin x) =>
    match x.change with
    | .op o => P.bin l s.resTy a b o
    | .lhs => some (P.conv l s.resTy a)
    | .rhs => some (P.conv l s.resTy b)
  | some (.expr x) =>
    match x.change l.cpp with
    | .insert o => (P.bin l s.resTy a b s.op).bind fun v => P.un l s.resTy s.resTy v o
    | .const c => c.int?
  | some _ => none

/-- The actions offered for the operator with optimisation, including the
decision of the visitor. -/
def BinSite.kept (l : Lang) (o : Options) (s : BinSite) (i j : Nat) : List Act :=
  (s.handle o.optimise).flatMap fun s => (s.apply l o i j).group.acts

/-- `K` is the original or still offered. -/
def Still (l : Lang) (o : Options) (s : BinSite) (e : ExprSite) (i j k m : Nat)
    (K : Option Act) : Prop :=
  ∀ x, K = some x → x ∈ s.kept l o i j ∨ x ∈ (e.apply l o k m).group.acts

section
variable {P : Platform} {l : Lang} {o : Options} {s : BinSite} {e : ExprSite} {i j k m : Nat}

theorem Still.none : Still l o s e i j k m none := fun _ h => nomatch h

theorem const_kept (he : IntExpr P l s e) (c : Int)
    (hc : c = 0 ∨ c = 1 ∨ (c = -1 ∧ s.resTy.isSigned l = true)) :
    ∃ K, Still l o s e i j k m K ∧ ∀ a b w, s.Operands P l a b →
      P.bin l s.resTy a b s.op = some w → s.value P l a b K = some c := by
  by_cases hv : e.self.intVal = some c
  · refine ⟨none, Still.none, fun a b w h1 h2 => ?_⟩
    have := he.const c hv a b w h1 h2
    subst this
    exact h2
  · rcases hc with rfl | rfl | ⟨rfl, hs⟩
    · refine ⟨some (.expr .ReplaceWithZeroInt), ?_, fun _ _ _ _ _ => rfl⟩
      intro x hx
      cases hx
      refine .inr ?_
      rw [e.group_acts]
      unfold ExprSite.clauses
      simp [he.ty, he.rvalue, he.int, he.notBool, ExprInfo.isInt, hv]
    · refine ⟨some (.expr .ReplaceWithOneInt), ?_, fun _ _ _ _ _ => rfl⟩
      intro x hx
      cases hx
      refine .inr ?_
      rw [e.group_acts]
      unfold ExprSite.clauses
      simp [he.ty, he.rvalue, he.int, he.notBool, ExprInfo.isInt, hv]
    · refine ⟨some (.expr .ReplaceWithMinusOneInt), ?_, fun _ _ _ _ _ => rfl⟩
      intro x hx
      cases hx
      refine .inr ?_
      rw [e.group_acts]
      unfold ExprSite.clauses
      simp [he.ty, he.rvalue, hs, ExprInfo.isInt, hv]

theorem isSmallConst_int {x : ExprInfo} (hx : x.ty.isInteger = true) :
    x.isSmallConst = true ↔ x.intVal = some 0 ∨ x.intVal = some 1 ∨ x.intVal = some (-1) := by
  have : x.ty.isFloat = false := by revert hx; simp [BTy.isInteger]
  unfold ExprInfo.isSmallConst
  simp [ExprInfo.isInt, ExprInfo.isFlt, hx, this, or_assoc]

theorem arith_not {op : BOp} (h : op.isArithmetic = true) :
    op.isLogical = false ∧ op.isRelational = false ∧ op.isAssign = false := by
  cases op <;> simp [BOp.isArithmetic] at h <;> decide

theorem kept_eq (hop : s.op.isArithmetic = true) (hz : (o.optimise && s.zeroOpOne) = false) :
    s.kept l o i j = (s.clauses o.optimise).map fun c => .bin c.2 := by
  unfold BinSite.kept BinSite.handle
  rw [hz]
  simp [s.group_acts, (arith_not hop).1]

theorem lhs_kept (hop : s.op.isArithmetic = true) (he : IntExpr P l s e)
    (hz : (o.optimise && s.zeroOpOne) = false) :
    ∃ K, Still l o s e i j k m K ∧ ∀ a b w, s.Operands P l a b →
      P.bin l s.resTy a b s.op = some w → s.value P l a b K = some a := by
  by_cases hc : s.lhs.isSmallConst = true
  · rw [isSmallConst_int (he.lhsTy ▸ he.int)] at hc
    by_cases hs : s.lhs.intVal = some (-1) ∧ s.resTy.isSigned l = false
    · refine ⟨none, Still.none, fun a b w h1 h2 => ?_⟩
      have h3 := h1.lhs
      rw [h1.lhsConst _ hs.1, he.lhsTy, P.holds_minusOne, hs.2] at h3
      cases h3
    · obtain ⟨c, hv, hc'⟩ : ∃ c, s.lhs.intVal = some c ∧
          (c = 0 ∨ c = 1 ∨ (c = -1 ∧ s.resTy.isSigned l = true)) := by
        rcases hc with h | h | h
        · exact ⟨_, h, .inl rfl⟩
        · exact ⟨_, h, .inr (.inl rfl)⟩
        · exact ⟨_, h, .inr (.inr ⟨rfl, by simpa [h] using hs⟩)⟩
      obtain ⟨K, hK, hKv⟩ := const_kept (i := i) (j := j) (k := k) (m := m) (o := o) he c hc'
      refine ⟨K, hK, fun a b w h1 h2 => ?_⟩
      rw [hKv a b w h1 h2, h1.lhsConst c hv]
  · refine ⟨some (.bin .ReplaceWithLHS), ?_, fun a b w h1 _ => ?_⟩
    · intro x hx
      cases hx
      refine .inl ?_
      rw [kept_eq hop hz]
      unfold BinSite.clauses BinSite.argClauses
      simp [(arith_not hop).2, hc]
    · show some (P.conv l s.resTy a) = some a
      rw [Platform.conv_holds (he.lhsTy ▸ h1.lhs)]

theorem rhs_kept (hop : s.op.isArithmetic = true) (he : IntExpr P l s e)
    (hz : (o.optimise && s.zeroOpOne) = false) :
    ∃ K, Still l o s e i j k m K ∧ ∀ a b w, s.Operands P l a b →
      P.bin l s.resTy a b s.op = some w → s.value P l a b K = some (P.conv l s.resTy b) := by
  by_cases hc : s.rhs.isSmallConst = true
  · rw [isSmallConst_int he.rhsInt] at hc
    by_cases hs : s.rhs.intVal = some (-1) ∧ s.resTy.isSigned l = false
    · refine ⟨none, Still.none, fun a b w h1 h2 => ?_⟩
      have h3 := h1.rhs
      have hb := h1.rhsConst _ hs.1
      subst hb
      by_cases hsh : s.op = .shl ∨ s.op = .shr
      · rcases hsh with h | h <;> rw [h] at h2 <;> simp [Platform.bin] at h2
      · rw [he.rhsTy (by grind) (by grind), P.holds_minusOne, hs.2] at h3
        cases h3
    · obtain ⟨c, hv, hc'⟩ : ∃ c, s.rhs.intVal = some c ∧
          (c = 0 ∨ c = 1 ∨ (c = -1 ∧ s.resTy.isSigned l = true)) := by
        rcases hc with h | h | h
        · exact ⟨_, h, .inl rfl⟩
        · exact ⟨_, h, .inr (.inl rfl)⟩
        · exact ⟨_, h, .inr (.inr ⟨rfl, by simpa [h] using hs⟩)⟩
      obtain ⟨K, hK, hKv⟩ := const_kept (i := i) (j := j) (k := k) (m := m) (o := o) he c hc'
      refine ⟨K, hK, fun a b w h1 h2 => ?_⟩
      rw [hKv a b w h1 h2, h1.rhsConst c hv, Platform.conv_holds]
      rcases hc' with rfl | rfl | ⟨rfl, h⟩
      · exact P.holds_zero l _
      · exact P.holds_one l _
      · exact (P.holds_minusOne _).2 h
  · refine ⟨some (.bin .ReplaceWithRHS), ?_, fun a b w h1 _ => rfl⟩
    intro x hx
    cases hx
    refine .inl ?_
    rw [kept_eq hop hz]
    unfold BinSite.clauses BinSite.argClauses
    simp [(arith_not hop).2, hc]

theorem isZero_int {x : ExprInfo} (hx : x.ty.isInteger = true) :
    x.isZero = true ↔ x.intVal = some 0 := by
  have : x.ty.isFloat = false := by revert hx; simp [BTy.isInteger]
  simp [ExprInfo.isZero, ExprInfo.isInt, ExprInfo.isFlt, hx, this]

theorem isOne_int {x : ExprInfo} (hx : x.ty.isInteger = true) :
    x.isOne = true ↔ x.intVal = some 1 := by
  have : x.ty.isFloat = false := by revert hx; simp [BTy.isInteger]
  simp [ExprInfo.isOne, ExprInfo.isInt, ExprInfo.isFlt, hx, this]

/-- A replacement that the arithmetic rules drop yields the left operand, the
right operand or zero, wherever it is defined. -/
theorem redundantArith_value (he : IntExpr P l s e) {x : BOp}
    (hr : redundantArith s.lhs s.rhs x = true) :
    (∀ a b r, s.Operands P l a b → P.bin l s.resTy a b x = some r → r = a) ∨
    ((x ≠ .shl ∧ x ≠ .shr) ∧
      ∀ a b r, s.Operands P l a b → P.bin l s.resTy a b x = some r → r = P.conv l s.resTy b) ∨
    (∀ a b r, s.Operands P l a b → P.bin l s.resTy a b x = some r → r = 0) := by
  have hz1 := isZero_int (x := s.lhs) (he.lhsTy ▸ he.int)
  have hz2 := isZero_int (x := s.rhs) he.rhsInt
  have ho1 := isOne_int (x := s.lhs) (he.lhsTy ▸ he.int)
  have ho2 := isOne_int (x := s.rhs) he.rhsInt
  unfold redundantArith at hr
  split at hr
  · cases hr
  split at hr
  · -- the right operand is 0
    rename_i h
    rw [Bool.and_eq_true, hz2] at h
    obtain ⟨hv, hx⟩ := h
    simp only [Bool.or_eq_true, beq_iff_eq] at hx
    have hr0 : ∀ t, P.result l t 0 = some 0 := fun t => Platform.result_holds (P.holds_zero l t)
    rcases hx with ((((rfl | rfl) | rfl) | rfl) | rfl) | rfl
    · left
      intro a b r ho hd
      rw [ho.rhsConst 0 hv] at hd
      simp [Platform.bin, Platform.result_holds (he.lhsTy ▸ ho.lhs)] at hd
      exact hd.symm
    · left
      intro a b r ho hd
      rw [ho.rhsConst 0 hv] at hd
      simp [Platform.bin, Platform.result_holds (he.lhsTy ▸ ho.lhs)] at hd
      exact hd.symm
    · left
      intro a b r ho hd
      rw [ho.rhsConst 0 hv] at hd
      have h1 := Platform.result_holds (he.lhsTy ▸ ho.lhs)
      have h2 := Platform.conv_holds (he.lhsTy ▸ ho.lhs)
      simp [Platform.bin, h1, h2] at hd
      grind
    · left
      intro a b r ho hd
      rw [ho.rhsConst 0 hv] at hd
      simp [Platform.bin] at hd
      grind
    · right; right
      intro a b r ho hd
      rw [ho.rhsConst 0 hv] at hd
      simp [Platform.bin, hr0] at hd
      exact hd.symm
    · right; right
      intro a b r ho hd
      rw [ho.rhsConst 0 hv] at hd
      simp [Platform.bin] at hd
  split at hr
  · -- the right operand is 1
    rename_i h
    rw [Bool.and_eq_true, ho2] at h
    obtain ⟨hv, hx⟩ := h
    simp only [Bool.or_eq_true, beq_iff_eq] at hx
    left
    intro a b r ho hd
    rw [ho.rhsConst 1 hv] at hd
    rcases hx with rfl | rfl <;>
      simp [Platform.bin, Platform.result_holds (he.lhsTy ▸ ho.lhs)] at hd <;> exact hd.symm
  split at hr
  · -- the left operand is 0
    rename_i h
    rw [Bool.and_eq_true, hz1] at h
    obtain ⟨hv, hx⟩ := h
    simp only [Bool.or_eq_true, beq_iff_eq] at hx
    have hr0 : ∀ t, P.result l t 0 = some 0 := fun t => Platform.result_holds (P.holds_zero l t)
    have hc0 : ∀ t, P.conv l t 0 = 0 := fun t => Platform.conv_holds (P.holds_zero l t)
    rcases hx with ((((rfl | rfl) | rfl) | rfl) | rfl) | rfl
    · right; left
      refine ⟨by decide, fun a b r ho hd => ?_⟩
      rw [ho.lhsConst 0 hv] at hd
      simp only [Platform.bin, Int.zero_add] at hd
      exact Platform.result_eq hd
    all_goals
      right; right
      intro a b r ho hd
      rw [ho.lhsConst 0 hv] at hd
      simp [Platform.bin, hr0, hc0] at hd
      grind
  split at hr
  · -- the left operand is 1
    rename_i h
    rw [Bool.and_eq_true, ho1] at h
    obtain ⟨hv, hx⟩ := h
    simp only [beq_iff_eq] at hx
    subst hx
    right; left
    refine ⟨by decide, fun a b r ho hd => ?_⟩
    rw [ho.lhsConst 1 hv] at hd
    simp only [Platform.bin, Int.one_mul] at hd
    exact Platform.result_eq hd
  · cases hr

theorem candidates_arith (hop : s.op.isArithmetic = true) :
    ∀ x ∈ s.candidates, x.isArithmetic = true ∧ redundantBool s.op x = false := by
  unfold BinSite.candidates
  generalize s.op = op at *
  cases op <;> simp [BOp.isArithmetic] at hop <;> cases s.lhs.ty.isBool <;> decide

/-- What an arithmetic, shift or bitwise operator other than `-` yields on 0 and 1. -/
def onZeroOne : BOp → Int
  | .add | .or | .xor => 1
  | _ => 0

theorem zero_op_one (hb : s.resTy.isBool = false) {x : BOp} (hx : x.isArithmetic = true) {r : Int}
    (h : P.bin l s.resTy 0 1 x = some r) :
    (x ≠ .sub ∧ r = onZeroOne x) ∨
    (x = .sub ∧ (s.resTy.isSigned l = true → r = -1)) := by
  have hr0 : P.result l s.resTy 0 = some 0 := Platform.result_holds (P.holds_zero l _)
  have hr1 : P.result l s.resTy 1 = some 1 := Platform.result_holds (P.holds_one l _)
  have hc0 : P.conv l s.resTy 0 = 0 := Platform.conv_holds (P.holds_zero l _)
  have hz : P.bits s.resTy 0 = 0#_ := by simp [Platform.bits]
  have hb1 := Platform.ofBits_bits (P.holds_one l s.resTy) hb
  have hb0 := Platform.ofBits_bits (P.holds_zero l s.resTy) hb
  cases x <;> simp [BOp.isArithmetic] at hx
  case sub =>
    right
    refine ⟨rfl, fun hs => ?_⟩
    have hm : P.result l s.resTy (-1) = some (-1) :=
      Platform.result_holds ((P.holds_minusOne _).2 hs)
    simp [Platform.bin, hm] at h
    exact h.symm
  all_goals
    left
    refine ⟨by decide, ?_⟩
    simp only [Platform.bin, Int.zero_add, Int.zero_mul, Int.zero_tdiv, Int.zero_tmod, hr0, hr1,
      hc0, hz, BitVec.zero_and, BitVec.zero_or, BitVec.zero_xor, hb1, Int.zero_ediv] at h
    first
      | exact (Option.some.inj h).symm
      | (rw [← hz, hb0] at h; exact (Option.some.inj h).symm)
      | (simp only [onZeroOne]; grind)

/-- C28, as far as it holds.  Wherever the original and the dropped mutant are
both defined, the dropped mutant yields the same as a certain kept mutant or
the original.  The exception is the replacement by subtraction of `0u op 1u`,
see `C28_unsigned_false`. -/
theorem C28_dropped_partial (P : Platform) (l : Lang) (o o' : Options) (s : BinSite) (e : ExprSite)
    (i j k m i' j' : Nat) (ho : o.optimise = false)
    (hop : s.op.isArithmetic = true) (he : IntExpr P l s e)
    (D : Act) (hD : D ∈ s.kept l o i' j') (hD' : D ∉ s.kept l o' i j)
    (hex : ¬ (s.zeroOpOne = true ∧ s.resTy.isSigned l = false ∧ D = .bin .ReplaceWithSub)) :
    ∃ K, Still l o' s e i j k m K ∧ ∀ a b w r, s.Operands P l a b →
      s.value P l a b none = some w → s.value P l a b (some D) = some r →
      s.value P l a b K = some r := by
  rw [kept_eq hop (by simp [ho]), ho] at hD
  have hsrc : (∃ x ∈ s.candidates, D = .bin x.action ∧ x ≠ s.op ∧ s.isValid x = true) ∨
      D = .bin .ReplaceWithLHS ∨ D = .bin .ReplaceWithRHS := by
    unfold BinSite.clauses BinSite.argClauses BinSite.replacements at hD
    simp [(arith_not hop).2] at hD
    grind
  by_cases hz : (o'.optimise && s.zeroOpOne) = true
  · -- the visitor adds no mutation for the operator
    rw [Bool.and_eq_true] at hz
    have hz' := hz.2
    unfold BinSite.zeroOpOne at hz'
    rw [Bool.and_eq_true, isZero_int (he.lhsTy ▸ he.int), isOne_int he.rhsInt] at hz'
    have fin : ∀ c, (c = 0 ∨ c = 1 ∨ (c = -1 ∧ s.resTy.isSigned l = true)) →
        (∀ r, s.value P l 0 1 (some D) = some r → r = c) →
        ∃ K, Still l o' s e i j k m K ∧ ∀ a b w r, s.Operands P l a b →
          s.value P l a b none = some w → s.value P l a b (some D) = some r →
          s.value P l a b K = some r := by
      intro c hc h
      obtain ⟨K, hK, hKv⟩ := const_kept (i := i) (j := j) (k := k) (m := m) (o := o') he c hc
      refine ⟨K, hK, fun a b w r h1 h2 h3 => ?_⟩
      rw [hKv a b w h1 h2]
      have ha := h1.lhsConst _ hz'.1
      have hb := h1.rhsConst _ hz'.2
      subst ha hb
      rw [h r h3]
    rcases hsrc with ⟨x, hx, rfl, _, _⟩ | rfl | rfl
    · have hch := s.candidates_new x hx
      have hxa := (candidates_arith hop x hx).1
      by_cases hxs : x = .sub
      · subst hxs
        have hs : s.resTy.isSigned l = true := by
          have : BOp.sub.action = .ReplaceWithSub := rfl
          simpa [hz.2, this] using hex
        refine fin (-1) (.inr (.inr ⟨rfl, hs⟩)) fun r h => ?_
        simp only [BinSite.value, hch] at h
        have := zero_op_one he.notBool hxa h
        grind
      · refine fin (onZeroOne x) ?_ fun r h => ?_
        · cases x <;> simp [onZeroOne]
        · simp only [BinSite.value, hch] at h
          have := zero_op_one he.notBool hxa h
          grind
    · refine fin 0 (.inl rfl) fun r h => ?_
      simp only [BinSite.value, BAct.change, Platform.conv_holds (P.holds_zero l _)] at h
      exact (Option.some.inj h).symm
    · refine fin 1 (.inr (.inl rfl)) fun r h => ?_
      simp only [BinSite.value, BAct.change, Platform.conv_holds (P.holds_one l _)] at h
      exact (Option.some.inj h).symm
  · have hz : (o'.optimise && s.zeroOpOne) = false := by simpa using hz
    rcases hsrc with ⟨x, hx, rfl, hne, hval⟩ | rfl | rfl
    · have hch := s.candidates_new x hx
      have hred : redundantArith s.lhs s.rhs x = true := by
        cases hr : redundantArith s.lhs s.rhs x with
        | true => rfl
        | false =>
          refine absurd ?_ hD'
          rw [kept_eq hop hz]
          unfold BinSite.clauses BinSite.replacements
          simp only [List.map_append, List.map_map, List.mem_append, List.mem_map,
            List.mem_filter]
          refine .inl ⟨x, ⟨hx, ?_⟩, rfl⟩
          simp [hne, hval, BinSite.isRedundant, hr, (candidates_arith hop x hx).2]
      rcases redundantArith_value he hred with h | ⟨_, h⟩ | h
      · obtain ⟨K, hK, hKv⟩ := lhs_kept (i := i) (j := j) (k := k) (m := m) hop he hz
        refine ⟨K, hK, fun a b w r h1 h2 h3 => ?_⟩
        simp only [BinSite.value, hch] at h3
        rw [hKv a b w h1 h2, h a b r h1 h3]
      · obtain ⟨K, hK, hKv⟩ := rhs_kept (i := i) (j := j) (k := k) (m := m) hop he hz
        refine ⟨K, hK, fun a b w r h1 h2 h3 => ?_⟩
        simp only [BinSite.value, hch] at h3
        rw [hKv a b w h1 h2, h a b r h1 h3]
      · obtain ⟨K, hK, hKv⟩ := const_kept (i := i) (j := j) (k := k) (m := m) (o := o') he 0 (.inl rfl)
        refine ⟨K, hK, fun a b w r h1 h2 h3 => ?_⟩
        simp only [BinSite.value, hch] at h3
        rw [hKv a b w h1 h2, h a b r h1 h3]
    · obtain ⟨K, hK, hKv⟩ := lhs_kept (i := i) (j := j) (k := k) (m := m) hop he hz
      refine ⟨K, hK, fun a b w r h1 h2 h3 => ?_⟩
      simp only [BinSite.value, BAct.change, Platform.conv_holds (he.lhsTy ▸ h1.lhs)] at h3
      rw [hKv a b w h1 h2, h3]
    · obtain ⟨K, hK, hKv⟩ := rhs_kept (i := i) (j := j) (k := k) (m := m) hop he hz
      refine ⟨K, hK, fun a b w r h1 h2 h3 => ?_⟩
      simp only [BinSite.value, BAct.change] at h3
      rw [hKv a b w h1 h2, h3]

end

/-- A target with the usual widths. -/
def Sample.platform : Platform where
  width
    | .bool | .char | .schar | .uchar | .char8 => 8
    | .short | .ushort | .char16 => 16
    | .long | .ulong | .longlong | .ulonglong => 64
    | .int128 | .uint128 => 128
    | _ => 32
  width_gt t := by cases t <;> decide
  prom
    | .bool | .char | .schar | .uchar | .char8 | .short | .ushort | .char16 | .wchar => .int
    | .char32 => .uint
    | t => t
  shlDefined := false

/-- An expression with the given operator that is not a constant. -/
def Sample.ofOp (op : BOp) (t : BTy) : ExprSite :=
  { Sample.expr { Sample.intVal with ty := t } with binOp := some op }

/-- The hypotheses are met by `a - 0`: the dropped `a + 0` equals the kept
replacement by the left operand. -/
theorem Sample.subZero_int :
    IntExpr Sample.platform Sample.cpp (Sample.bin .sub Sample.intVal (Sample.intConst 0))
      (Sample.ofOp .sub .int) :=
  ⟨rfl, rfl, rfl, rfl, rfl, fun _ _ => rfl, rfl, nofun⟩

example : ∃ K, Still Sample.cpp Sample.opts
      (Sample.bin .sub Sample.intVal (Sample.intConst 0)) (Sample.ofOp .sub .int) 0 0 0 0 K ∧
    ∀ a b w r, (Sample.bin .sub Sample.intVal (Sample.intConst 0)).Operands Sample.platform
        Sample.cpp a b →
      (Sample.bin .sub Sample.intVal (Sample.intConst 0)).value Sample.platform Sample.cpp a b none
        = some w →
      (Sample.bin .sub Sample.intVal (Sample.intConst 0)).value Sample.platform Sample.cpp a b
        (some (.bin .ReplaceWithAdd)) = some r →
      (Sample.bin .sub Sample.intVal (Sample.intConst 0)).value Sample.platform Sample.cpp a b K
        = some r :=
  C28_dropped_partial Sample.platform Sample.cpp Sample.noopt Sample.opts _ _ 0 0 0 0 0 0 rfl rfl
    Sample.subZero_int (.bin .ReplaceWithAdd) (by decide +kernel) (by decide +kernel)
    (by decide +kernel)

example : (Sample.bin .sub Sample.intVal (Sample.intConst 0)).Operands Sample.platform
      Sample.cpp 7 0 ∧
    (Sample.bin .sub Sample.intVal (Sample.intConst 0)).value Sample.platform Sample.cpp 7 0
      (some (.bin .ReplaceWithAdd)) = some 7 :=
  ⟨⟨by decide +kernel, by decide +kernel, nofun, by rintro v ⟨⟩; rfl⟩, by decide +kernel⟩

/-- `0u + 1u`. -/
def Sample.uzeroOne : BinSite :=
  { Sample.bin .add { Sample.intConst 0 with ty := .uint } { Sample.intConst 1 with ty := .uint }
    with resTy := .uint }

def Sample.uzeroOneExpr : ExprSite :=
  { Sample.ofOp .add .uint with self := { Sample.intConst 1 with ty := .uint } }

/-- The exception is necessary.  For `0u + 1u` optimisation drops `0u - 1u`,
which is the largest number, and neither the original nor any action still
offered yields it. -/
theorem C28_unsigned_false :
    let s := Sample.uzeroOne
    let e := Sample.uzeroOneExpr
    IntExpr Sample.platform Sample.cpp s e ∧ s.Operands Sample.platform Sample.cpp 0 1 ∧
    .bin .ReplaceWithSub ∈ s.kept Sample.cpp Sample.noopt 0 0 ∧
    .bin .ReplaceWithSub ∉ s.kept Sample.cpp Sample.opts 0 0 ∧
    s.value Sample.platform Sample.cpp 0 1 (some (.bin .ReplaceWithSub)) = some 4294967295 ∧
    ∀ K, Still Sample.cpp Sample.opts s e 0 0 0 0 K →
      s.value Sample.platform Sample.cpp 0 1 K ≠ some 4294967295 := by
  refine ⟨⟨rfl, rfl, rfl, rfl, rfl, fun _ _ => rfl, rfl, ?_⟩,
    ⟨by decide +kernel, by decide +kernel, by rintro v ⟨⟩; rfl, by rintro v ⟨⟩; rfl⟩,
    by decide +kernel, by decide +kernel, by decide +kernel, ?_⟩
  · rintro v ⟨⟩ a b w ho
    rw [ho.lhsConst 0 rfl, ho.rhsConst 1 rfl]
    have h : Sample.platform.bin Sample.cpp Sample.uzeroOne.resTy 0 1 Sample.uzeroOne.op
        = some 1 := by decide +kernel
    rw [h]
    rintro ⟨⟩
    rfl
  · intro K hK
    have : ∀ K ∈ none :: (Sample.uzeroOne.kept Sample.cpp Sample.opts 0 0
        ++ (Sample.uzeroOneExpr.apply Sample.cpp Sample.opts 0 0).group.acts).map some,
        Sample.uzeroOne.value Sample.platform Sample.cpp 0 1 K ≠ some 4294967295 := by
      decide +kernel
    refine this K ?_
    cases K with
    | none => simp
    | some x => simpa using hK x rfl

/-- The same decision of the visitor removes every mutant of the comparison
`0 > 1` in C++: the operator is not mutated because constants would do, and
the constants are not offered because operators would do. -/
theorem C28_comparison_without_mutants :
    let s := Sample.bin .gt (Sample.intConst 0) (Sample.intConst 1)
    let e : ExprSite :=
      { Sample.expr ⟨.bool, false, false, false, false, some 0, none, some false, true⟩ with
        binOp := some .gt }
    s.kept Sample.cpp Sample.opts 0 0 ++ (e.apply Sample.cpp Sample.opts 0 0).group.acts = [] ∧
    .bin .ReplaceWithLT ∈ s.kept Sample.cpp Sample.noopt 0 0 := by
  decide +kernel

end Dredd
