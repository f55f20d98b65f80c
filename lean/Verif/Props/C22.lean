/-
C22: two definitions generated for the same file that have the same name and the
same parameter types are the same, so that adding both to a set of texts leaves
one, and no function is defined twice.
-/
import Verif.Proofs.Names
import Verif.Props.C23

namespace Dredd

/-! ### Functions depend only on what names record -/

theorem clauses_lines {α : Type} (track : Bool) (b b' : Nat) (ls : List Line)
    (cs : List (RetE × α)) :
    (runClauses track b { lines := ls } cs).lines = (runClauses track b' { lines := ls } cs).lines ∧
    (runClauses track b { lines := ls } cs).off = (runClauses track b' { lines := ls } cs).off := by
  rw [runClauses_eq, runClauses_eq]
  exact ⟨rfl, rfl⟩

theorem ExprInfo.isSmallConst_iff (e : ExprInfo) :
    e.isSmallConst = !(e.constClass == .other) := by
  have : e.isSmallConst = (e.isZero || e.isOne || e.isMinusOne) := by
    unfold ExprInfo.isSmallConst ExprInfo.isZero ExprInfo.isOne ExprInfo.isMinusOne
    simp only [Bool.or_assoc]
  rw [this, ExprInfo.isZero_iff, ExprInfo.isOne_iff, ExprInfo.isMinusOne_iff]
  cases e.constClass <;> rfl

/-- The list of candidates of an assignment has assignments only. -/
theorem BinSite.candidates_assign {s : BinSite} (h : s.op.isAssign = true) {op : BOp}
    (hm : op ∈ s.candidates) : op.isAssign = true := by
  unfold BinSite.candidates at hm
  revert h hm
  cases hs : s.op <;> intro h <;> first
    | (exact absurd h (by decide))
    | (intro hm
       simp [opFamilies] at hm
       rcases hm with h | h | h | h | h | h | h | h | h | h | h <;> rw [h] <;> rfl)

theorem redundantArith_assign {lhs rhs : ExprInfo} {op : BOp} (h : op.isAssign = true) :
    redundantArith lhs rhs op = false := by
  revert h
  cases op <;> simp [BOp.isAssign, redundantArith]

theorem BinSite.clauses_congr {s s' : BinSite} {opt : Bool} (h1 : s.op = s'.op)
    (h2 : s.lhs.ty = s'.lhs.ty) (h3 : s.rhs.ty = s'.rhs.ty)
    (h4 : s.classes opt = s'.classes opt) : s.clauses opt = s'.clauses opt := by
  have hc : s.candidates = s'.candidates := by unfold BinSite.candidates; rw [h1, h2]
  have hv : ∀ op, s.isValid op = s'.isValid op := by
    intro op; unfold BinSite.isValid; rw [h2, h3]
  unfold BinSite.classes at h4
  rw [← h1] at h4
  cases ha : s.op.isAssign
  · cases opt
    · unfold BinSite.clauses BinSite.argClauses BinSite.replacements
      simp only [Bool.false_and, Bool.or_false, Bool.not_false, Bool.true_or, hv, hc, h1]
    · simp only [ha, Bool.not_false, Bool.and_self, if_true, Prod.mk.injEq] at h4
      have hr : ∀ op, s.isRedundant op = s'.isRedundant op := by
        intro op
        unfold BinSite.isRedundant redundantArith
        rw [h1, ExprInfo.isZero_iff, ExprInfo.isZero_iff, ExprInfo.isOne_iff, ExprInfo.isOne_iff,
          ExprInfo.isZero_iff, ExprInfo.isZero_iff, ExprInfo.isOne_iff, ExprInfo.isOne_iff,
          h4.1, h4.2]
      unfold BinSite.clauses BinSite.argClauses BinSite.replacements
      rw [ExprInfo.isSmallConst_iff, ExprInfo.isSmallConst_iff, ExprInfo.isSmallConst_iff,
        ExprInfo.isSmallConst_iff, h4.1, h4.2]
      simp only [hv, hc, h1, hr]
  · have ha' : s'.op.isAssign = true := h1 ▸ ha
    have hrep : s.replacements opt = s'.replacements opt := by
      unfold BinSite.replacements
      rw [← hc]
      apply List.filter_congr
      intro op hm
      have := BinSite.candidates_assign ha hm
      unfold BinSite.isRedundant
      rw [redundantArith_assign this, redundantArith_assign this, hv, h1]
    unfold BinSite.clauses BinSite.argClauses
    rw [hrep, ha, ha', h1]
    simp

theorem BinSite.genFn_congr {s s' : BinSite} {l : Lang} {o : Options} (b b' : Nat)
    (h1 : s.op = s'.op) (h2 : s.lhs.ty = s'.lhs.ty) (h3 : s.rhs.ty = s'.rhs.ty)
    (hv : (s.op.isAssign && s.lhs.volatile) = (s'.op.isAssign && s'.lhs.volatile))
    (h4 : s.classes o.optimise = s'.classes o.optimise) (h5 : s.resTy = s'.resTy)
    (hn : s.fnName l o.optimise = s'.fnName l o.optimise)
    (hm1 : s.mode1 l = s'.mode1 l) (hm2 : s.mode2 l = s'.mode2 l) :
    s.genFn l o b = s'.genFn l o b' := by
  have hl : s.lhsTyText l = s'.lhsTyText l := by
    unfold BinSite.lhsTyText
    rw [h2]
    rw [← h1] at hv ⊢
    cases ha : s.op.isAssign
    · rfl
    · rw [ha, Bool.true_and, Bool.true_and] at hv
      rw [hv]
  have hr : s.resTyText l = s'.resTyText l := by
    unfold BinSite.resTyText
    rw [h5]
    rw [← h1] at hv ⊢
    cases ha : s.op.isAssign
    · rfl
    · rw [ha, Bool.true_and, Bool.true_and] at hv
      rw [hv]
  unfold BinSite.genFn
  rw [BinSite.genBody_eq, BinSite.genBody_eq, BinSite.clauses_congr h1 h2 h3 h4, hl, hr, hn, hm1,
    hm2, h1, h3]
  have := clauses_lines o.track b b' (if o.track = true then [] else [Line.quick (.bin s'.op)])
    (s'.clauses o.optimise)
  simp only [this.1, this.2]

theorem UnSite.clauses_congr {s s' : UnSite} {opt : Bool} (h1 : s.op = s'.op)
    (h2 : s.sub.ty = s'.sub.ty) (h3 : s.sub.lvalue = s'.sub.lvalue)
    (h4 : s.self.lvalue = s'.self.lvalue) (h5 : s.cls opt = s'.cls opt) :
    s.clauses opt = s'.clauses opt := by
  have hr : opt = true → ∀ op, s.isRedundant op = s'.isRedundant op := by
    intro ho op
    unfold UnSite.cls at h5
    rw [ho, if_pos rfl, if_pos rfl] at h5
    have a : ∀ s : UnSite, s.isRedundant op = ((s.sub.isZero || s.sub.isOne) &&
        (op == .minus || op == .lnot) || s.sub.isMinusOne && op == .minus) := by
      intro s
      unfold UnSite.isRedundant ExprInfo.isZero ExprInfo.isOne ExprInfo.isMinusOne
      simp only [Bool.or_assoc]
      cases (s.sub.isInt 0 || (s.sub.isFlt .zero || (s.sub.isInt 1 || s.sub.isFlt .one)))
        && (op == .minus || op == .lnot)
      · cases (s.sub.isInt (-1) || s.sub.isFlt .minusOne) && op == .minus <;> rfl
      · rfl
    rw [a, a, ExprInfo.isZero_iff, ExprInfo.isZero_iff, ExprInfo.isOne_iff, ExprInfo.isOne_iff,
      ExprInfo.isMinusOne_iff, ExprInfo.isMinusOne_iff, h5]
  unfold UnSite.clauses UnSite.replacements UnSite.isValid
  rw [h1, h2, h3, h4]
  cases opt
  · rfl
  · simp only [hr rfl]

theorem UnSite.genFn_congr {s s' : UnSite} {l : Lang} {o : Options} (b b' : Nat)
    (h1 : s.op = s'.op) (h2 : s.sub.ty = s'.sub.ty) (h3 : s.sub.lvalue = s'.sub.lvalue)
    (h4 : s.self.lvalue = s'.self.lvalue) (h5 : s.cls o.optimise = s'.cls o.optimise)
    (hr : s.resTyText l = s'.resTyText l) (hi : s.inputTy l = s'.inputTy l)
    (hn : s.fnName l o.optimise = s'.fnName l o.optimise) (hm : s.mode l = s'.mode l) :
    s.genFn l o b = s'.genFn l o b' := by
  unfold UnSite.genFn
  rw [UnSite.genBody_eq, UnSite.genBody_eq, UnSite.clauses_congr h1 h2 h3 h4 h5, hr, hi, hn, hm, h1]
  have := clauses_lines o.track b b' (if o.track = true then [] else [Line.quick (.un s'.op)])
    (s'.clauses o.optimise)
  simp only [this.1, this.2]

theorem ExprSite.beforeBinary_iff (s : ExprSite) (l : Lang) :
    s.beforeBinaryRedundant l = (s.boolRedundant l true || s.boolRedundant l false) := by
  unfold ExprSite.beforeBinaryRedundant ExprSite.boolRedundant
  rcases s.binOp with _ | op
  · rfl
  · cases op <;> simp

/-- What clauses need to know about the value of an expression. -/
theorem ExprInfo.valClass_spec (e : ExprInfo) :
    (e.ty.isBool = false → e.isInt 0 = (e.ty.isInteger && e.valClass == .zero) ∧
      e.isInt 1 = (e.ty.isInteger && e.valClass == .one) ∧
      e.isInt (-1) = (e.ty.isInteger && e.valClass == .minusOne)) ∧
    e.isFlt .zero = (e.ty.isFloat && e.valClass == .zero) ∧
    e.isFlt .one = (e.ty.isFloat && e.valClass == .one) ∧
    e.isFlt .minusOne = (e.ty.isFloat && e.valClass == .minusOne) ∧
    e.isBoolConst true = (e.valClass == .tru) ∧
    e.isBoolConst false = (e.valClass == .fls) ∧
    ((e.ty = .bool → e.intVal.isSome → e.boolVal.isSome) → e.ty.isFloat = false →
      ((e.ty.isBool && e.boolVal.isSome) || e.intVal.isSome) = !(e.valClass == .other)) := by
  have hb : e.ty.isBool = true → e.ty = .bool := by cases e.ty <;> decide
  cases h : e.ty.isBool
  · have hv : e.valClass = match e.constClass with
        | .zero => .zero | .one => .one | .minusOne => .minusOne
        | .other => if e.intVal.isSome then .constant else .other := by
      unfold ExprInfo.valClass; rw [h]; rfl
    unfold ExprInfo.constClass ExprInfo.isZero ExprInfo.isOne ExprInfo.isMinusOne at hv
    rw [hv]
    unfold ExprInfo.isInt ExprInfo.isFlt ExprInfo.isBoolConst BTy.isInteger
    rw [h]
    cases e.ty.isFloat
    · rcases e.intVal with _ | v
      · simp
      · by_cases h0 : v = 0
        · subst h0; simp
        by_cases h1 : v = 1
        · subst h1; simp
        by_cases h2 : v = -1
        · subst h2; simp
        simp [h0, h1, h2]
        exact ⟨beq_eq_false_iff_ne.mpr h0, beq_eq_false_iff_ne.mpr h1, beq_eq_false_iff_ne.mpr h2⟩
    · rcases e.floatVal with _ | v
      · cases e.intVal <;> simp <;> decide
      · cases e.intVal <;> cases v <;> simp <;> decide
  · have ht := hb h
    unfold ExprInfo.valClass ExprInfo.isInt ExprInfo.isFlt ExprInfo.isBoolConst BTy.isInteger
    rw [ht]
    rcases e.boolVal with _ | _ | _ <;> cases e.intVal <;> simp [BTy.isBool, BTy.isFloat] <;> decide

theorem BTy.signed_facts (l : Lang) (t : BTy) (h : t.isSigned l = true) :
    t.isBool = false ∧ t.isFloat = false := by
  cases t <;> simp_all [BTy.isSigned, BTy.isBool, BTy.isFloat]

theorem ExprSite.clauses_congr {s s' : ExprSite} {l : Lang} {opt : Bool}
    (h1 : s.self.ty = s'.self.ty) (h2 : s.self.lvalue = s'.self.lvalue)
    (h3 : s.val opt = s'.val opt)
    (h4 : (opt && s.beforeLogicalArgRedundant l) = (opt && s'.beforeLogicalArgRedundant l))
    (h5 : (opt && s.boolRedundant l true) = (opt && s'.boolRedundant l true))
    (h6 : (opt && s.boolRedundant l false) = (opt && s'.boolRedundant l false))
    (hc : s.self.lvalue → s.canMutateLValue = true)
    (hc' : s'.self.lvalue → s'.canMutateLValue = true)
    (hb : s.self.ty = .bool → s.self.intVal.isSome → s.self.boolVal.isSome)
    (hb' : s'.self.ty = .bool → s'.self.intVal.isSome → s'.self.boolVal.isSome) :
    s.clauses l opt = s'.clauses l opt := by
  unfold ExprSite.clauses
  have hcc : (!s.self.lvalue || !s.canMutateLValue) = (!s'.self.lvalue || !s'.canMutateLValue) := by
    cases h : s.self.lvalue
    · rw [← h2, h]; rfl
    · rw [hc h, hc' (h2 ▸ h), ← h2, h]
  rw [hcc, ← h1, ← h2]
  cases opt
  · rfl
  · simp only [Bool.true_and] at h4 h5 h6
    simp only [ExprSite.val, if_true] at h3
    obtain ⟨a1, a2, a3, a4, a5, a6, a7⟩ := s.self.valClass_spec
    obtain ⟨b1, b2, b3, b4, b5, b6, b7⟩ := s'.self.valClass_spec
    have a7 := a7 hb
    have b7 := b7 hb'
    rw [← h1, ← h3] at b1 b2 b3 b4 b7
    rw [← h3] at b5 b6
    have hm : ∀ s : ExprSite, ∀ op, s.insertionRedundant l op = (s.boolRedundant l true ||
        s.boolRedundant l false || s.beforeLogicalArgRedundant l ||
        (match op with
          | .minus => s.minusRedundant l
          | .not => s.notRedundant l
          | .lnot => s.lnotRedundant
          | _ => false)) := by
      intro s op
      unfold ExprSite.insertionRedundant
      rw [ExprSite.beforeBinary_iff]
      cases s.boolRedundant l true || s.boolRedundant l false
      · cases s.beforeLogicalArgRedundant l <;> rfl
      · rfl
    have hint : s.self.ty.isBool = false → s.self.isInt 0 = s'.self.isInt 0 ∧
        s.self.isInt 1 = s'.self.isInt 1 ∧ s.self.isInt (-1) = s'.self.isInt (-1) := by
      intro h
      rw [(a1 h).1, (a1 h).2.1, (a1 h).2.2, (b1 h).1, (b1 h).2.1, (b1 h).2.2]
      exact ⟨rfl, rfl, rfl⟩
    have hmin : s.self.ty.isBool = false → s.minusRedundant l = s'.minusRedundant l := by
      intro h
      unfold ExprSite.minusRedundant
      rw [(hint h).1, (hint h).2.1, (hint h).2.2, a2, a3, a4, b2, b3, b4, h1]
    have hnot : s.self.ty.isBool = false → s.notRedundant l = s'.notRedundant l := by
      intro h
      unfold ExprSite.notRedundant
      rw [(hint h).1, (hint h).2.2, h1]
    have hlnot : s.self.ty.isFloat = false → s.lnotRedundant = s'.lnotRedundant := by
      intro h
      unfold ExprSite.lnotRedundant
      rw [a7 h, ← h1, b7 h]
    simp only [hm, h4, h5, h6, a2, a3, a4, a5, a6, b2, b3, b4, b5, b6]
    cases hbl : s.self.ty.isBool
    · rw [hmin hbl, hnot hbl, (hint hbl).1, (hint hbl).2.1, (hint hbl).2.2]
      cases hfl : s.self.ty.isFloat
      · rw [hlnot hfl]
      · have hi : s.self.ty.isInteger = false := by unfold BTy.isInteger; rw [hfl]; rfl
        rw [hi]
        rfl
    · have hfl : s.self.ty.isFloat = false := by
        revert hbl; cases s.self.ty <;> decide
      have hsg : s.self.ty.isSigned l = false := by
        cases h : s.self.ty.isSigned l
        · rfl
        · rw [(BTy.signed_facts l _ h).1] at hbl; exact absurd hbl (by decide)
      rw [hlnot hfl, hsg, hfl]
      simp

theorem ExprSite.genFn_congr {s s' : ExprSite} {l : Lang} {o : Options} (b b' : Nat)
    (h1 : s.self.ty = s'.self.ty) (hc : s.clauses l o.optimise = s'.clauses l o.optimise)
    (hi : s.inputTy l = s'.inputTy l)
    (hn : s.fnName l o.optimise = s'.fnName l o.optimise) (hm : s.mode l = s'.mode l) :
    s.genFn l o b = s'.genFn l o b' := by
  unfold ExprSite.genFn
  rw [ExprSite.genBody_eq, ExprSite.genBody_eq, hc, hi, hn, hm, h1]
  have := clauses_lines o.track b b' (if o.track = true then [] else [Line.quick (.arg .arg)])
    (s'.clauses l o.optimise)
  simp only [this.1, this.2]

/-- A parameter of the same printed type is passed in the same way. -/
theorem Param.mode_of_tyText {p p' : Param} (hty : p.ty = p'.ty)
    (h : p.mode ≠ .deref) (h' : p'.mode ≠ .deref) (ht : p.tyText = p'.tyText) :
    p.mode = p'.mode := by
  have hlen := congrArg List.length ht
  unfold Param.tyText at hlen
  rw [hty] at hlen
  cases hp : p.mode <;> cases hp' : p'.mode <;> first
    | rfl
    | (exact absurd hp h)
    | (exact absurd hp' h')
    | (rw [hp, hp'] at hlen
       simp only [List.length_append, List.length_cons] at hlen
       omega)

/-! ### The theorem -/

theorem C22_binary {s s' : BinSite} {l : Lang} {o : Options} (b b' : Nat)
    {RB : BOp → BTy → BTy → BTy} {RU : UOp → BTy → BTy}
    (h : (Mutation.bin s).Coherent l RB RU) (h' : (Mutation.bin s').Coherent l RB RU)
    (hn : s.fnName l o.optimise = s'.fnName l o.optimise)
    (hp : l.cpp = true → (s.genFn l o b).params.map Param.tyText
      = (s'.genFn l o b').params.map Param.tyText ∨
      (s.genFn l o b).params.map Param.mode = (s'.genFn l o b').params.map Param.mode) :
    s.genFn l o b = s'.genFn l o b' := by
  obtain ⟨h1, h2⟩ := h
  obtain ⟨h1', h2'⟩ := h'
  obtain ⟨e1, e2, e3, e4, e5, _⟩ := BinSite.fnName_inj h1 h1'
    (e := []) (e' := []) (by decide) (by decide) (by rw [hn])
  have hl : s.lhsTyText l = s'.lhsTyText l := by
    unfold BinSite.lhsTyText
    rw [e3]
    rw [← e1] at e2 ⊢
    cases ha : s.op.isAssign
    · rfl
    · rw [ha, Bool.true_and, Bool.true_and] at e2
      rw [e2]
  have hm : s.mode1 l = s'.mode1 l ∧ s.mode2 l = s'.mode2 l := by
    cases hc : l.cpp
    · unfold BinSite.mode1 BinSite.mode2
      rw [hc, e1]
      exact ⟨rfl, rfl⟩
    · rcases hp hc with hp | hp
      rotate_left
      · simpa only [BinSite.genFn, List.map_cons, List.map_nil, List.cons.injEq, and_true] using hp
      simp only [BinSite.genFn, List.map_cons, List.map_nil, List.cons.injEq, and_true] at hp
      have n1 : ∀ s : BinSite, s.mode1 l ≠ .deref ∧ s.mode2 l ≠ .deref := by
        intro s
        unfold BinSite.mode1 BinSite.mode2
        rw [hc]
        cases s.lhs.sideEffects <;> cases s.op.isLogical <;> cases s.rhs.sideEffects <;>
          simp
      exact ⟨Param.mode_of_tyText (by simpa using hl) (n1 s).1 (n1 s').1 hp.1,
        Param.mode_of_tyText (by simp [e4]) (n1 s).2 (n1 s').2 hp.2⟩
  exact BinSite.genFn_congr b b' e1 e3 e4 e2 e5 (by rw [h2, h2', e1, e3, e4]) hn hm.1 hm.2

theorem C22_unary {s s' : UnSite} {l : Lang} {o : Options} (b b' : Nat)
    {RB : BOp → BTy → BTy → BTy} {RU : UOp → BTy → BTy}
    (h : (Mutation.un s).Coherent l RB RU) (h' : (Mutation.un s').Coherent l RB RU)
    (hn : s.fnName l o.optimise = s'.fnName l o.optimise)
    (hp : l.cpp = true → (s.genFn l o b).params.map Param.tyText
      = (s'.genFn l o b').params.map Param.tyText ∨
      (s.genFn l o b).params.map Param.mode = (s'.genFn l o b').params.map Param.mode) :
    s.genFn l o b = s'.genFn l o b' := by
  obtain ⟨h1, h2, h3, h4, h5, h6⟩ := h
  obtain ⟨h1', h2', h3', h4', h5', h6'⟩ := h'
  obtain ⟨e1, e2, e3, e4⟩ := UnSite.fnName_inj h1 h1' hn
  have hlv : s.sub.lvalue = s'.sub.lvalue := by rw [h3, h3', e1]
  have hsl : s.self.lvalue = s'.self.lvalue := by rw [h5, h5', e1]
  have hcpp : cppTypeModifiers s.sub (s.sub.ty.name l)
      = cppTypeModifiers s'.sub (s'.sub.ty.name l) := by
    unfold cppTypeModifiers
    rw [← hlv] at e2 h4' ⊢
    rw [e3]
    cases hx : s.sub.lvalue
    · rfl
    · rw [hx, Bool.true_and, Bool.true_and] at e2
      rw [e2, h4 hx, h4' hx]
  have hcc : cTypeModifiers s.sub (s.sub.ty.name l)
      = cTypeModifiers s'.sub (s'.sub.ty.name l) := by
    unfold cTypeModifiers
    rw [← hlv] at e2 h4' ⊢
    rw [e3]
    cases hx : s.sub.lvalue
    · rfl
    · rw [hx, Bool.true_and, Bool.true_and] at e2
      rw [e2, h4 hx, h4' hx]
  have hi : s.inputTy l = s'.inputTy l := by
    unfold UnSite.inputTy
    rw [hcpp, hcc]
  have hty : s.self.ty = s'.self.ty := by rw [h2, h2', e1, e3]
  have hr : s.resTyText l = s'.resTyText l := by
    unfold UnSite.resTyText cppTypeModifiers
    rw [← hsl, hty]
    cases hx : s.self.lvalue
    · rfl
    · have hx' : s'.self.lvalue = true := hsl ▸ hx
      have hsub : s.sub.lvalue = true := by
        rw [h3]
        rw [h5] at hx
        simp only [Bool.and_eq_true, Bool.or_eq_true, beq_iff_eq] at hx
        rcases hx.2 with h | h <;> rw [h] <;> rfl
      rw [← hlv, hsub, Bool.true_and, Bool.true_and] at e2
      rw [(h6 hx).1, (h6 hx).2, (h6' hx').1, (h6' hx').2, e2]
  have hm : s.mode l = s'.mode l := by
    cases hc : l.cpp
    · unfold UnSite.mode
      rw [hc, e1]
      rfl
    · rcases hp hc with hp | hp
      rotate_left
      · simpa only [UnSite.genFn, List.map_cons, List.map_nil, List.cons.injEq, and_true] using hp
      simp only [UnSite.genFn, List.map_cons, List.map_nil, List.cons.injEq, and_true] at hp
      have n1 : ∀ s : UnSite, s.mode l ≠ .deref := by
        intro s
        unfold UnSite.mode
        rw [hc]
        cases s.self.sideEffects <;> simp
      exact Param.mode_of_tyText (by simpa using hi) (n1 s) (n1 s') hp
  exact UnSite.genFn_congr b b' e1 e3 hlv hsl e4 hr hi hn hm

theorem C22_expr {s s' : ExprSite} {l : Lang} {o : Options} (b b' : Nat)
    {RB : BOp → BTy → BTy → BTy} {RU : UOp → BTy → BTy}
    (h : (Mutation.expr s).Coherent l RB RU) (h' : (Mutation.expr s').Coherent l RB RU)
    (hn : s.fnName l o.optimise = s'.fnName l o.optimise)
    (hp : l.cpp = true → (s.genFn l o b).params.map Param.tyText
      = (s'.genFn l o b').params.map Param.tyText ∨
      (s.genFn l o b).params.map Param.mode = (s'.genFn l o b').params.map Param.mode) :
    s.genFn l o b = s'.genFn l o b' := by
  obtain ⟨h1, h2⟩ := h
  obtain ⟨h1', h2'⟩ := h'
  obtain ⟨e1, e2, e3, e4, e5, e6, e7⟩ := ExprSite.fnName_inj hn
  have hc := ExprSite.clauses_congr e2 e3 e4 e5 e6 e7 (fun h => (h1 h).2) (fun h => (h1' h).2) h2 h2'
  have hcpp : cppTypeModifiers s.self (s.self.ty.name l)
      = cppTypeModifiers s'.self (s'.self.ty.name l) := by
    unfold cppTypeModifiers
    rw [← e3] at e1 h1' ⊢
    rw [e2]
    cases hx : s.self.lvalue
    · rfl
    · rw [hx, Bool.true_and, Bool.true_and] at e1
      rw [e1, (h1 hx).1, (h1' hx).1]
  have hcc : cTypeModifiers s.self (s.self.ty.name l)
      = cTypeModifiers s'.self (s'.self.ty.name l) := by
    unfold cTypeModifiers
    rw [← e3] at e1 h1' ⊢
    rw [e2]
    cases hx : s.self.lvalue
    · rfl
    · rw [hx, Bool.true_and, Bool.true_and] at e1
      rw [e1, (h1 hx).1, (h1' hx).1]
  have hi : s.inputTy l = s'.inputTy l := by
    unfold ExprSite.inputTy
    rw [hcpp, hcc]
  have hm : s.mode l = s'.mode l := by
    cases hc : l.cpp
    · unfold ExprSite.mode
      rw [hc, e3]
      rfl
    · rcases hp hc with hp | hp
      rotate_left
      · simpa only [ExprSite.genFn, List.map_cons, List.map_nil, List.cons.injEq, and_true] using hp
      simp only [ExprSite.genFn, List.map_cons, List.map_nil, List.cons.injEq, and_true] at hp
      have n1 : ∀ s : ExprSite, s.mode l ≠ .deref := by
        intro s
        unfold ExprSite.mode
        rw [hc]
        cases s.self.sideEffects <;> simp
      exact Param.mode_of_tyText (by simpa using hi) (n1 s) (n1 s') hp
  exact ExprSite.genFn_congr b b' e2 hc hi hn hm

/-- The names of functions for different kinds of points differ. -/
theorem fnName_bin_un {s : BinSite} {s' : UnSite} {l : Lang} {b : Bool} {e e' : Text} :
    s.fnName l b ++ e ≠ s'.fnName l b ++ e' := by
  rw [BinSite.fnName_eq, UnSite.fnName_eq]
  intro h
  exact absurd (congrArg (·[16]?) h) (by simp)

theorem fnName_bin_expr {s : BinSite} {s' : ExprSite} {l : Lang} {b : Bool} {e e' : Text} :
    s.fnName l b ++ e ≠ s'.fnName l b ++ e' := by
  rw [BinSite.fnName_eq, ExprSite.fnName_eq]
  intro h
  exact absurd (congrArg (·[16]?) h) (by simp)

theorem fnName_un_expr {s : UnSite} {s' : ExprSite} {l : Lang} {b : Bool} {e e' : Text} :
    s.fnName l b ++ e ≠ s'.fnName l b ++ e' := by
  rw [UnSite.fnName_eq, ExprSite.fnName_eq]
  intro h
  exact absurd (congrArg (·[16]?) h) (by simp)

/-- The functions of a binary operator: either the one function, or one of those
for logical operators of C. -/
theorem BinSite.decls_cases {s : BinSite} {l : Lang} {o : Options} {first id : Nat} {fn : MutFn}
    (h : fn ∈ (s.apply l o first id).decls) :
    ((!l.cpp && s.op.isLogical) = false ∧ fn = s.genFn l o id) ∨
    ((!l.cpp && s.op.isLogical) = true ∧
      (fn = cLogicalLhsFn s l o ∨ fn = cLogicalRhsFn s l o ∨ fn = cLogicalOuterFn s l o)) := by
  unfold BinSite.apply at h
  split at h
  next hc =>
    right
    refine ⟨hc, ?_⟩
    simp only [BinSite.applyCLogical] at h
    cases ht : o.track
    · simpa [ht] using h
    · right; right; simpa [ht] using h
  next hc =>
    left
    exact ⟨by simpa using hc, by simpa using h⟩

theorem BinSite.decls_name {s : BinSite} {l : Lang} {o : Options} {first id : Nat} {fn : MutFn}
    (h : fn ∈ (s.apply l o first id).decls) : ∃ e ∈ cEnds, fn.name = s.fnName l o.optimise ++ e := by
  rcases BinSite.decls_cases h with ⟨_, rfl⟩ | ⟨_, rfl | rfl | rfl⟩
  · exact ⟨[], by decide, (List.append_nil _).symm⟩
  · exact ⟨t!"_lhs", by decide, rfl⟩
  · exact ⟨t!"_rhs", by decide, rfl⟩
  · exact ⟨t!"_outer", by decide, rfl⟩

theorem C22_bin_bin {l : Lang} {o : Options} {RB : BOp → BTy → BTy → BTy} {RU : UOp → BTy → BTy}
    {s s' : BinSite} (h : (Mutation.bin s).Coherent l RB RU)
    (h' : (Mutation.bin s').Coherent l RB RU)
    {first first' id id' : Nat} {fn fn' : MutFn}
    (hm : fn ∈ (s.apply l o first id).decls) (hm' : fn' ∈ (s'.apply l o first' id').decls)
    (hn : fn.name = fn'.name)
    (hp : l.cpp = true → fn.params.map Param.tyText = fn'.params.map Param.tyText ∨
      fn.params.map Param.mode = fn'.params.map Param.mode) :
    fn = fn' := by
  rcases BinSite.decls_cases hm with ⟨hc, rfl⟩ | ⟨hc, hf⟩
  · rcases BinSite.decls_cases hm' with ⟨hc', rfl⟩ | ⟨hc', hf'⟩
    · exact C22_binary id id' h h' hn hp
    · exfalso
      obtain ⟨e, he, hen⟩ : ∃ e ∈ cEnds, fn'.name = s'.fnName l o.optimise ++ e := by
        rcases hf' with rfl | rfl | rfl
        · exact ⟨t!"_lhs", by decide, rfl⟩
        · exact ⟨t!"_rhs", by decide, rfl⟩
        · exact ⟨t!"_outer", by decide, rfl⟩
      have := (BinSite.fnName_inj h.1 h'.1 (l := l) (opt := o.optimise) (e := []) (e' := e)
        (by decide) he (by rw [← hen, List.append_nil]; exact hn)).1
      rw [this, hc'] at hc
      exact absurd hc (by decide)
  · rcases BinSite.decls_cases hm' with ⟨hc', rfl⟩ | ⟨hc', hf'⟩
    · exfalso
      obtain ⟨e, he, hen⟩ : ∃ e ∈ cEnds, fn.name = s.fnName l o.optimise ++ e := by
        rcases hf with rfl | rfl | rfl
        · exact ⟨t!"_lhs", by decide, rfl⟩
        · exact ⟨t!"_rhs", by decide, rfl⟩
        · exact ⟨t!"_outer", by decide, rfl⟩
      have := (BinSite.fnName_inj h.1 h'.1 (l := l) (opt := o.optimise) (e := e) (e' := [])
        he (by decide) (by rw [← hen, List.append_nil]; exact hn)).1
      rw [← this, hc] at hc'
      exact absurd hc' (by decide)
    · have key : ∀ e ∈ cEnds, ∀ e' ∈ cEnds,
          s.fnName l o.optimise ++ e = s'.fnName l o.optimise ++ e' →
          s.op = s'.op ∧ s.lhs.ty = s'.lhs.ty ∧ s.rhs.ty = s'.rhs.ty ∧ s.resTy = s'.resTy ∧
          e = e' ∧ s.fnName l o.optimise = s'.fnName l o.optimise := by
        intro e he e' he' hq
        obtain ⟨a, _, c, d, _, f⟩ := BinSite.fnName_inj h.1 h'.1 he he' hq
        refine ⟨a, c, d, by rw [h.2, h'.2, a, c, d], f, ?_⟩
        rw [f] at hq
        exact List.append_cancel_right hq
      rcases hf with rfl | rfl | rfl <;> rcases hf' with rfl | rfl | rfl
      · obtain ⟨a, b, _, _, _, g⟩ := key t!"_lhs" (by decide) t!"_lhs" (by decide) hn
        unfold cLogicalLhsFn; rw [a, b, g]
      · have := (key t!"_lhs" (by decide) t!"_rhs" (by decide) hn).2.2.2.2.1
        exact absurd this (by decide)
      · have := (key t!"_lhs" (by decide) t!"_outer" (by decide) hn).2.2.2.2.1
        exact absurd this (by decide)
      · have := (key t!"_rhs" (by decide) t!"_lhs" (by decide) hn).2.2.2.2.1
        exact absurd this (by decide)
      · obtain ⟨a, _, b, _, _, g⟩ := key t!"_rhs" (by decide) t!"_rhs" (by decide) hn
        unfold cLogicalRhsFn; rw [a, b, g]
      · have := (key t!"_rhs" (by decide) t!"_outer" (by decide) hn).2.2.2.2.1
        exact absurd this (by decide)
      · have := (key t!"_outer" (by decide) t!"_lhs" (by decide) hn).2.2.2.2.1
        exact absurd this (by decide)
      · have := (key t!"_outer" (by decide) t!"_rhs" (by decide) hn).2.2.2.2.1
        exact absurd this (by decide)
      · obtain ⟨_, _, _, b, _, g⟩ := key t!"_outer" (by decide) t!"_outer" (by decide) hn
        unfold cLogicalOuterFn; rw [b, g]

theorem UnSite.decls_eq {s : UnSite} {l : Lang} {o : Options} {first id : Nat} {fn : MutFn}
    (h : fn ∈ ((Mutation.un s).apply l o first id).decls) : fn = s.genFn l o id :=
  List.mem_singleton.mp h

theorem ExprSite.decls_eq {s : ExprSite} {l : Lang} {o : Options} {first id : Nat} {fn : MutFn}
    (h : fn ∈ ((Mutation.expr s).apply l o first id).decls) : fn = s.genFn l o id :=
  List.mem_singleton.mp h

theorem UnSite.genFn_name {s : UnSite} {l : Lang} {o : Options} {id : Nat} :
    (s.genFn l o id).name = s.fnName l o.optimise ++ [] := (List.append_nil _).symm

theorem ExprSite.genFn_name {s : ExprSite} {l : Lang} {o : Options} {id : Nat} :
    (s.genFn l o id).name = s.fnName l o.optimise ++ [] := (List.append_nil _).symm

/-- C22: two functions generated for one file that have the same name and, in
C++, the same parameter types, or parameters that are passed in the same ways, are the same. -/
theorem C22_either (l : Lang) (o : Options) (RB : BOp → BTy → BTy → BTy) (RU : UOp → BTy → BTy)
    (m m' : Mutation) (h : m.Coherent l RB RU) (h' : m'.Coherent l RB RU)
    (first first' id id' : Nat) (fn fn' : MutFn)
    (hm : fn ∈ (m.apply l o first id).decls) (hm' : fn' ∈ (m'.apply l o first' id').decls)
    (hn : fn.name = fn'.name)
    (hp : l.cpp = true → fn.params.map Param.tyText = fn'.params.map Param.tyText ∨
      fn.params.map Param.mode = fn'.params.map Param.mode) :
    fn = fn' := by
  cases m with
  | bin s =>
    obtain ⟨e, _, he⟩ := BinSite.decls_name hm
    cases m' with
    | bin s' => exact C22_bin_bin h h' hm hm' hn hp
    | un s' =>
      rw [UnSite.decls_eq hm', he, UnSite.genFn_name] at hn
      exact absurd hn fnName_bin_un
    | expr s' =>
      rw [ExprSite.decls_eq hm', he, ExprSite.genFn_name] at hn
      exact absurd hn fnName_bin_expr
    | stmt s' => exact absurd hm' List.not_mem_nil
  | un s =>
    obtain rfl := UnSite.decls_eq hm
    cases m' with
    | bin s' =>
      obtain ⟨e, _, he⟩ := BinSite.decls_name hm'
      rw [he, UnSite.genFn_name] at hn
      exact absurd hn.symm fnName_bin_un
    | un s' =>
      obtain rfl := UnSite.decls_eq hm'
      exact C22_unary id id' h h' hn hp
    | expr s' =>
      rw [ExprSite.decls_eq hm', UnSite.genFn_name, ExprSite.genFn_name] at hn
      exact absurd hn fnName_un_expr
    | stmt s' => exact absurd hm' List.not_mem_nil
  | expr s =>
    obtain rfl := ExprSite.decls_eq hm
    cases m' with
    | bin s' =>
      obtain ⟨e, _, he⟩ := BinSite.decls_name hm'
      rw [he, ExprSite.genFn_name] at hn
      exact absurd hn.symm fnName_bin_expr
    | un s' =>
      rw [UnSite.decls_eq hm', UnSite.genFn_name, ExprSite.genFn_name] at hn
      exact absurd hn.symm fnName_un_expr
    | expr s' =>
      obtain rfl := ExprSite.decls_eq hm'
      exact C22_expr id id' h h' hn hp
    | stmt s' => exact absurd hm' List.not_mem_nil
  | stmt s => exact absurd hm List.not_mem_nil

/-- C22: two functions generated for one file that have the same name and, in
C++, the same parameter types are the same. -/
theorem C22_same (l : Lang) (o : Options) (RB : BOp → BTy → BTy → BTy) (RU : UOp → BTy → BTy)
    (m m' : Mutation) (h : m.Coherent l RB RU) (h' : m'.Coherent l RB RU)
    (first first' id id' : Nat) (fn fn' : MutFn)
    (hm : fn ∈ (m.apply l o first id).decls) (hm' : fn' ∈ (m'.apply l o first' id').decls)
    (hn : fn.name = fn'.name)
    (hp : l.cpp = true → fn.params.map Param.tyText = fn'.params.map Param.tyText) :
    fn = fn' :=
  C22_either l o RB RU m m' h h' first first' id id' fn fn' hm hm' hn fun hc => .inl (hp hc)

/-- C22: a call by name never has a choice of two functions that take their arguments in the same
ways (by value, as function objects, or by address). -/
theorem C22_call (l : Lang) (o : Options) (RB : BOp → BTy → BTy → BTy) (RU : UOp → BTy → BTy)
    (m m' : Mutation) (h : m.Coherent l RB RU) (h' : m'.Coherent l RB RU)
    (first first' id id' : Nat) (fn fn' : MutFn)
    (hm : fn ∈ (m.apply l o first id).decls) (hm' : fn' ∈ (m'.apply l o first' id').decls)
    (hn : fn.name = fn'.name)
    (hp : l.cpp = true → fn.params.map Param.mode = fn'.params.map Param.mode) :
    fn = fn' :=
  C22_either l o RB RU m m' h h' first first' id id' fn fn' hm hm' hn fun hc => .inr (hp hc)

/-- C22: the list of definitions put into a mutated file has no two entries for
functions of the same name and, in C++, the same parameter types. -/
theorem C22_once (o : Options) (req : Bool) (first : Nat) (f : SourceFile) (out : Text)
    (RB : BOp → BTy → BTy → BTy) (RU : UOp → BTy → BTy)
    (hcoh : ∀ m ∈ f.tree.post, m.Coherent f.lang RB RU)
    (h : (handleTU o req first f).output = some out)
    (hloc : f.preludeOff.getD 0 ≤ f.src.length) :
    ∃ (fns : List MutFn) (front back : Text),
      out = front ++ (preludeText f.lang o first ((handleTU o req first f).nextId - first)
        ++ fns.flatMap MutFn.render) ++ back ∧
      fns.Pairwise (fun fn fn' => fn.name = fn'.name →
        f.lang.cpp = true ∧ fn.params.map Param.tyText ≠ fn'.params.map Param.tyText) ∧
      (∀ m ∈ f.tree.post, ∃ id, ∀ fn ∈ (m.apply f.lang o first id).decls,
        ∃ fn' ∈ fns, fn'.render = fn.render) := by
  obtain ⟨pts, ds, others, back, hpts, -, hs, hmem, -, -, hout⟩ :=
    C23_output o req first f out h hloc
  have hfn : ∀ t ∈ ds.reverse, ∃ fn : MutFn, t = fn.render ∧
      ∃ p ∈ pts, fn ∈ (p.2.apply f.lang o first p.1).decls := by
    intro t ht
    obtain ⟨p, hp, fn, hf, he⟩ := (hmem t).mp (List.mem_reverse.mp ht)
    exact ⟨fn, he, p, hp, hf⟩
  have hpw : ds.reverse.Pairwise (fun a b => a ≠ b) := by
    rw [List.pairwise_reverse]
    refine hs.imp ?_
    intro a b hab hba
    rw [hba, textLt_irrefl] at hab
    exact absurd hab (by decide)
  obtain ⟨fns, hf1, hf2⟩ : ∃ fns : List MutFn, fns.map MutFn.render = ds.reverse ∧
      ∀ fn ∈ fns, ∃ p ∈ pts, fn ∈ (p.2.apply f.lang o first p.1).decls := by
    clear hpw hout
    generalize ds.reverse = xs at hfn ⊢
    induction xs with
    | nil => exact ⟨[], rfl, by simp⟩
    | cons x xs ih =>
      obtain ⟨fns, a, b⟩ := ih (fun t ht => hfn t (List.mem_cons_of_mem _ ht))
      obtain ⟨fn, e, p⟩ := hfn x List.mem_cons_self
      refine ⟨fn :: fns, by simp [a, e], ?_⟩
      intro g hg
      rcases List.mem_cons.mp hg with rfl | hg
      · exact p
      · exact b g hg
  have hcp : ∀ p ∈ pts, p.2 ∈ f.tree.post := by
    intro p hp
    rw [← hpts]
    exact List.mem_map.mpr ⟨p, hp, rfl⟩
  refine ⟨fns, rewrite (f.src.take (f.preludeOff.getD 0))
    (others.filter fun e => e.off < f.preludeOff.getD 0), back, ?_, ?_, ?_⟩
  · rw [hout, ← hf1, ← List.flatMap_def]
  · rw [← hf1, List.pairwise_map] at hpw
    refine hpw.imp_of_mem ?_
    intro a b ha hb hab hn
    obtain ⟨p, hp, hpa⟩ := hf2 a ha
    obtain ⟨q, hq, hqb⟩ := hf2 b hb
    by_cases hc : f.lang.cpp = true
    · refine ⟨hc, fun hpar => hab ?_⟩
      rw [C22_same f.lang o RB RU p.2 q.2 (hcoh _ (hcp p hp)) (hcoh _ (hcp q hq)) first first _ _
        a b hpa hqb hn (fun _ => hpar)]
    · refine absurd ?_ hab
      rw [C22_same f.lang o RB RU p.2 q.2 (hcoh _ (hcp p hp)) (hcoh _ (hcp q hq)) first first _ _
        a b hpa hqb hn (fun h => absurd h hc)]
  · intro m hm
    rw [← hpts] at hm
    obtain ⟨p, hp, rfl⟩ := List.mem_map.mp hm
    refine ⟨p.1, fun fn hfm => ?_⟩
    have : fn.render ∈ fns.map MutFn.render := by
      rw [hf1, List.mem_reverse]
      exact (hmem _).mpr ⟨p, hp, fn, hfm, rfl⟩
    obtain ⟨g, hg, he⟩ := List.mem_map.mp this
    exact ⟨g, hg, he⟩

/-! ### Examples -/

/-- A file with two additions, an increment, and a comparison, in C++ and C, all
coherent. -/
def Sample.resB : BOp → BTy → BTy → BTy := fun op t _ =>
  if op.isLogical || op.isRelational then .bool else t

def Sample.resU : UOp → BTy → BTy := fun _ t => t

def Sample.preInc : UnSite := Sample.un .preInc Sample.intVar Sample.intVar

/-- `a + 0` at some place. -/
def Sample.addZero (n : Nat) : BinSite :=
  { Sample.bin .add Sample.intVal (Sample.intConst 0) with span := ⟨n, n + 5⟩, opOff := some (n + 2) }

theorem Sample.addZero_coherent (n : Nat) :
    (Mutation.bin (Sample.addZero n)).Coherent Sample.cpp Sample.resB Sample.resU :=
  ⟨rfl, rfl⟩

example : (Mutation.un Sample.preInc).Coherent Sample.cpp Sample.resB Sample.resU :=
  ⟨by decide, by decide, by decide, fun _ => by decide, by decide, fun _ => by decide⟩

/-- The two functions for `a + 0` and `f() + 0` have the same name, but different
parameter types. -/
example :
    let s := Sample.bin .add Sample.intVal (Sample.intConst 0)
    let s' := Sample.bin .add { Sample.intVal with sideEffects := true } (Sample.intConst 0)
    (s.genFn Sample.cpp Sample.opts 0).name = (s'.genFn Sample.cpp Sample.opts 0).name ∧
    (s.genFn Sample.cpp Sample.opts 0).render ≠ (s'.genFn Sample.cpp Sample.opts 0).render := by
  decide +kernel

/-- The theorem applied to `a + 0` at two places. -/
example (id id' : Nat) : (Sample.addZero 8).genFn Sample.cpp Sample.opts id
    = (Sample.addZero 20).genFn Sample.cpp Sample.opts id' :=
  C22_same Sample.cpp Sample.opts Sample.resB Sample.resU (.bin (Sample.addZero 8))
    (.bin (Sample.addZero 20)) (Sample.addZero_coherent 8) (Sample.addZero_coherent 20) 0 0 id id'
    _ _ (List.mem_singleton.mpr rfl) (List.mem_singleton.mpr rfl) rfl (fun _ => rfl)

/-- The sample file meets the hypotheses of `C22_once`. -/
example : (∀ m ∈ (Sample.file t!"a.cc" Sample.cpp).tree.post,
      m.Coherent Sample.cpp Sample.resB Sample.resU) ∧
    (handleTU Sample.opts true 0 (Sample.file t!"a.cc" Sample.cpp)).output.isSome ∧
    (Sample.file t!"a.cc" Sample.cpp).preludeOff.getD 0
      ≤ (Sample.file t!"a.cc" Sample.cpp).src.length := by
  refine ⟨?_, by decide +kernel, by decide⟩
  intro m hm
  have : m ∈ [Mutation.bin (Sample.bin .add Sample.intVal Sample.intVal),
      .expr (Sample.expr Sample.intVal), .stmt Sample.stmt] := by
    revert hm
    exact (by decide : ∀ m ∈ (Sample.file t!"a.cc" Sample.cpp).tree.post,
      m ∈ [Mutation.bin (Sample.bin .add Sample.intVal Sample.intVal),
        .expr (Sample.expr Sample.intVal), .stmt Sample.stmt]) m
  simp only [List.mem_cons, List.not_mem_nil, or_false] at this
  rcases this with rfl | rfl | rfl
  · exact ⟨by decide, by decide⟩
  · exact ⟨fun h => absurd h (by decide), fun h => absurd h (by decide)⟩
  · trivial

end Dredd
