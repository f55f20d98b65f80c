/-
C29: unary operators: what optimisation drops equals the original or something
kept.
-/
import Verif.Props.C28

namespace Dredd

/-- What the language says about integer promotion. -/
structure Platform.Promotes (P : Platform) (l : Lang) : Prop where
  holds : ∀ t v, t.isInteger = true → P.Holds l t v → P.Holds l (P.prom t) v
  notBool : ∀ t, (P.prom t).isBool = false
  signed : ∀ t, t.isSigned l = true → (P.prom t).isSigned l = true
  bool : (P.prom .bool).isSigned l = true
  wide : ∀ t, (P.prom t).isSigned l = false → P.width .int ≤ P.width (P.prom t)

/-- Possible values of an expression. -/
structure ExprInfo.Value (P : Platform) (l : Lang) (x : ExprInfo) (v : Int) : Prop where
  holds : P.Holds l x.ty v
  int : ∀ c, x.intVal = some c → v = c
  bool : x.ty.isBool = true → ∀ b, x.boolVal = some b → v = ofBool b

/-- The value of an expression of type `t` and value `v` when an action is
applied (`none`: the original), where defined. -/
def exprValue (P : Platform) (l : Lang) (t : BTy) (v : Int) : Option Act → Option Int
  | none => some v
  | some (.expr x) =>
    match x.change l.cpp with
    | .insert o => P.un l t t v o
    | .const c => c.int?
  | _ => none

/-- `K` is the original or still offered. -/
def StillExpr (l : Lang) (o : Options) (e : ExprSite) (k m : Nat) (K : Option Act) : Prop :=
  ∀ x, K = some x → x ∈ (e.apply l o k m).group.acts

section
variable {P : Platform} {l : Lang} {o : Options} {e : ExprSite} {k m : Nat}

theorem StillExpr.none : StillExpr l o e k m none := fun _ h => nomatch h

/-- A constant is still offered unless it is the value of the expression. -/
theorem econst_kept (hr : e.self.lvalue = false) (hi : e.self.ty.isInteger = true)
    (hb : e.beforeBinaryRedundant l = false) (c : Int)
    (hc : c = 0 ∨ c = 1 ∨ (c = -1 ∧ e.self.ty.isSigned l = true)) :
    ∃ K, StillExpr l o e k m K ∧ ∀ v, e.self.Value P l v →
      exprValue P l e.self.ty v K = some c := by
  have hbr : ∀ b, e.boolRedundant l b = false := by
    intro b
    unfold ExprSite.beforeBinaryRedundant at hb
    unfold ExprSite.boolRedundant
    grind
  by_cases hbool : e.self.ty.isBool = true
  · have hs : e.self.ty.isSigned l = false := by
      cases h : e.self.ty.isSigned l with
      | false => rfl
      | true => rw [BTy.not_bool_of_signed h] at hbool; cases hbool
    rcases hc with rfl | rfl | ⟨rfl, h⟩
    · by_cases hv : e.self.boolVal = some false
      · exact ⟨none, .none, fun v hv' => by rw [hv'.bool hbool _ hv]; rfl⟩
      · refine ⟨some (.expr .ReplaceWithFalse), ?_, fun v _ => ?_⟩
        · rintro x ⟨⟩
          rw [e.group_acts]
          unfold ExprSite.clauses
          simp [hr, hbool, ExprInfo.isBoolConst, hv, hbr]
        · cases hl : l.cpp <;> simp [exprValue, EAct.change, hl, Lit.int?]
    · by_cases hv : e.self.boolVal = some true
      · exact ⟨none, .none, fun v hv' => by rw [hv'.bool hbool _ hv]; rfl⟩
      · refine ⟨some (.expr .ReplaceWithTrue), ?_, fun v _ => ?_⟩
        · rintro x ⟨⟩
          rw [e.group_acts]
          unfold ExprSite.clauses
          simp [hr, hbool, ExprInfo.isBoolConst, hv, hbr]
        · cases hl : l.cpp <;> simp [exprValue, EAct.change, hl, Lit.int?]
    · rw [hs] at h; cases h
  · by_cases hv : e.self.intVal = some c
    · exact ⟨none, .none, fun v hv' => by rw [hv'.int _ hv]; rfl⟩
    · rcases hc with rfl | rfl | ⟨rfl, hs⟩
      · refine ⟨some (.expr .ReplaceWithZeroInt), ?_, fun v _ => rfl⟩
        rintro x ⟨⟩
        rw [e.group_acts]
        unfold ExprSite.clauses
        simp [hr, hi, hbool, ExprInfo.isInt, hv]
      · refine ⟨some (.expr .ReplaceWithOneInt), ?_, fun v _ => rfl⟩
        rintro x ⟨⟩
        rw [e.group_acts]
        unfold ExprSite.clauses
        simp [hr, hi, hbool, ExprInfo.isInt, hv]
      · refine ⟨some (.expr .ReplaceWithMinusOneInt), ?_, fun v _ => rfl⟩
        rintro x ⟨⟩
        rw [e.group_acts]
        unfold ExprSite.clauses
        simp [hr, hs, ExprInfo.isInt, hv]

theorem un_lnot (t r : BTy) (v : Int) : P.un l t r v .lnot = some (if v = 0 then 1 else 0) := by
  simp only [Platform.un]
  split
  · rw [Platform.conv_holds (P.holds_one l _)]
  · rw [Platform.conv_holds (P.holds_zero l _)]

theorem un_minus (t r : BTy) (v : Int) (h : P.Holds l (P.prom t) (-v)) (h' : P.Holds l r (-v)) :
    P.un l t r v .minus = some (-v) := by
  simp [Platform.un, Platform.result_holds h, Platform.conv_holds h']

theorem un_not (t r : BTy) (v : Int) (hs : (P.prom t).isSigned l = true)
    (h : P.Holds l (P.prom t) v) (h' : P.Holds l r (-v - 1)) :
    P.un l t r v .not = some (-v - 1) := by
  simp [Platform.un, Platform.flip_signed h hs, Platform.conv_holds h']

end

/-- The actions offered for an expression that is not an l-value. -/
theorem ExprSite.mem_acts (e : ExprSite) (l : Lang) (o : Options) (k m : Nat)
    (hr : e.self.lvalue = false) (hi : e.self.ty.isInteger = true) (D : Act) :
    D ∈ (e.apply l o k m).group.acts ↔
      ((o.optimise = false ∨ e.insertionRedundant l .lnot = false) ∧ D = .expr .InsertLNot) ∨
      ((e.self.ty.isBool = false ∧
        (o.optimise = false ∨ e.insertionRedundant l .not = false)) ∧ D = .expr .InsertNot) ∨
      ((e.self.ty.isSigned l = true ∧
        (o.optimise = false ∨ e.insertionRedundant l .minus = false)) ∧ D = .expr .InsertMinus) ∨
      ((e.self.ty.isBool = true ∧ (o.optimise = false ∨
        e.self.boolVal ≠ some true ∧ e.boolRedundant l true = false)) ∧
        D = .expr .ReplaceWithTrue) ∨
      ((e.self.ty.isBool = true ∧ (o.optimise = false ∨
        e.self.boolVal ≠ some false ∧ e.boolRedundant l false = false)) ∧
        D = .expr .ReplaceWithFalse) ∨
      ((e.self.ty.isBool = false ∧ (o.optimise = false ∨ e.self.intVal ≠ some 0)) ∧
        D = .expr .ReplaceWithZeroInt) ∨
      ((e.self.ty.isBool = false ∧ (o.optimise = false ∨ e.self.intVal ≠ some 1)) ∧
        D = .expr .ReplaceWithOneInt) ∨
      ((e.self.ty.isSigned l = true ∧ (o.optimise = false ∨ e.self.intVal ≠ some (-1))) ∧
        D = .expr .ReplaceWithMinusOneInt) := by
  have hf : e.self.ty.isFloat = false := by revert hi; simp [BTy.isInteger]
  rw [e.group_acts]
  unfold ExprSite.clauses
  cases h1 : e.self.ty.isBool <;> cases h2 : e.self.ty.isSigned l <;> cases h3 : o.optimise <;>
    simp [hr, hi, hf, h1, ExprInfo.isInt, ExprInfo.isBoolConst, apply_ite (List.map _),
      mem_ite_nil] <;> grind

/-- C29, inserted operators and constants, for all integer types: what
optimisation drops yields the same as a certain kept mutant or the original
(relational and logical expressions and operands of logical operators are the
subject of C27). -/
theorem C29_insertion (P : Platform) (l : Lang) (hP : P.Promotes l) (o o' : Options) (e : ExprSite)
    (k m k' m' : Nat) (ho : o.optimise = false)
    (hr : e.self.lvalue = false) (hi : e.self.ty.isInteger = true)
    (hb : e.beforeBinaryRedundant l = false) (hla : e.beforeLogicalArgRedundant l = false)
    (D : Act) (hD : D ∈ (e.apply l o k' m').group.acts)
    (hD' : D ∉ (e.apply l o' k m).group.acts) :
    ∃ K, StillExpr l o' e k m K ∧ ∀ v r, e.self.Value P l v →
      exprValue P l e.self.ty v (some D) = some r → exprValue P l e.self.ty v K = some r := by
  have hf : e.self.ty.isFloat = false := by revert hi; simp [BTy.isInteger]
  have hbr : ∀ b, e.boolRedundant l b = false := by
    intro b
    unfold ExprSite.beforeBinaryRedundant at hb
    unfold ExprSite.boolRedundant
    grind
  have fin : ∀ c, (c = 0 ∨ c = 1 ∨ (c = -1 ∧ e.self.ty.isSigned l = true)) →
      (∀ v r, e.self.Value P l v → exprValue P l e.self.ty v (some D) = some r → r = c) →
      ∃ K, StillExpr l o' e k m K ∧ ∀ v r, e.self.Value P l v →
        exprValue P l e.self.ty v (some D) = some r →
        exprValue P l e.self.ty v K = some r := by
    intro c hc h
    obtain ⟨K, hK, hKv⟩ := econst_kept (P := P) (o := o') (k := k) (m := m) hr hi hb c hc
    exact ⟨K, hK, fun v r h1 h2 => by rw [hKv v h1, h v r h1 h2]⟩
  rw [e.mem_acts l _ _ _ hr hi] at hD hD'
  have hsi : e.self.ty.isSigned l = true → P.Holds l e.self.ty (-1) := (P.holds_minusOne _).2
  simp only [ExprSite.insertionRedundant, hb, hla, hbr, Bool.false_eq_true, if_false] at hD hD'
  rcases hD with ⟨_, rfl⟩ | ⟨⟨hnb, _⟩, rfl⟩ | ⟨⟨hs, _⟩, rfl⟩ | ⟨⟨hbo, _⟩, rfl⟩ | ⟨⟨hbo, _⟩, rfl⟩ |
    ⟨_, rfl⟩ | ⟨_, rfl⟩ | ⟨_, rfl⟩
  · -- `!`
    simp [ExprSite.lnotRedundant] at hD'
    have hval : ∀ v, exprValue P l e.self.ty v (some (.expr .InsertLNot)) =
        some (if v = 0 then 1 else 0) := fun v => un_lnot e.self.ty _ v
    obtain ⟨_, h⟩ := hD'
    by_cases hbc : e.self.ty.isBool = true ∧ ∃ b, e.self.boolVal = some b
    · obtain ⟨hb1, b, hb2⟩ := hbc
      refine fin (ofBool (!b)) (by cases b <;> simp [ofBool]) fun v r h1 h2 => ?_
      rw [hval, h1.bool hb1 b hb2] at h2
      cases b <;> simp [ofBool] at h2 ⊢ <;> exact h2.symm
    · obtain ⟨c, hc⟩ : ∃ c, e.self.intVal = some c := by
        refine Option.ne_none_iff_exists'.1 (h fun hb1 => ?_)
        cases hb2 : e.self.boolVal with
        | none => rfl
        | some b => exact absurd ⟨hb1, b, hb2⟩ hbc
      refine fin (if c = 0 then 1 else 0) (by split <;> simp) fun v r h1 h2 => ?_
      rw [hval, h1.int c hc] at h2
      exact (Option.some.inj h2).symm
  · -- `~`
    simp [ExprSite.notRedundant, hnb, ExprInfo.isInt, hi] at hD'
    obtain ⟨_, hs, h⟩ := hD'
    have hps := hP.signed _ hs
    have hval : ∀ v, P.Holds l e.self.ty v → P.Holds l e.self.ty (-v - 1) →
        exprValue P l e.self.ty v (some (.expr .InsertNot)) = some (-v - 1) :=
      fun v h1 h2 => un_not _ _ _ hps (hP.holds _ _ hi h1) h2
    have h : e.self.intVal = some 0 ∨ e.self.intVal = some (-1) := by grind
    rcases h with h | h
    · refine fin (-1) (.inr (.inr ⟨rfl, hs⟩)) fun v r h1 h2 => ?_
      have hv := h1.int 0 h
      subst hv
      rw [hval 0 h1.holds (hsi hs)] at h2
      exact (Option.some.inj h2).symm
    · refine fin 0 (.inl rfl) fun v r h1 h2 => ?_
      have hv := h1.int (-1) h
      subst hv
      rw [hval (-1) h1.holds (P.holds_zero ..)] at h2
      exact (Option.some.inj h2).symm
  · -- `-`
    simp [ExprSite.minusRedundant, hs, ExprInfo.isInt, ExprInfo.isFlt, hi, hf] at hD'
    obtain ⟨_, h⟩ := hD'
    have hval : ∀ v, P.Holds l e.self.ty (-v) →
        exprValue P l e.self.ty v (some (.expr .InsertMinus)) = some (-v) :=
      fun v h1 => un_minus _ _ _ (hP.holds _ _ hi h1) h1
    have h : e.self.intVal = some 0 ∨ e.self.intVal = some 1 ∨ e.self.intVal = some (-1) := by
      grind
    rcases h with h | h
    · refine fin 0 (.inl rfl) fun v r h1 h2 => ?_
      have hv := h1.int 0 h
      subst hv
      rw [hval 0 (P.holds_zero ..)] at h2
      exact (Option.some.inj h2).symm
    · rcases h with h | h
      · refine fin (-1) (.inr (.inr ⟨rfl, hs⟩)) fun v r h1 h2 => ?_
        have hv := h1.int 1 h
        subst hv
        rw [hval 1 (hsi hs)] at h2
        exact (Option.some.inj h2).symm
      · refine fin 1 (.inr (.inl rfl)) fun v r h1 h2 => ?_
        have hv := h1.int (-1) h
        subst hv
        rw [hval (-1) (P.holds_one ..)] at h2
        exact (Option.some.inj h2).symm
  · refine fin 1 (.inr (.inl rfl)) fun v r _ h2 => ?_
    cases hl : l.cpp <;> simp [exprValue, EAct.change, hl, Lit.int?] at h2 <;> exact h2.symm
  · refine fin 0 (.inl rfl) fun v r _ h2 => ?_
    cases hl : l.cpp <;> simp [exprValue, EAct.change, hl, Lit.int?] at h2 <;> exact h2.symm
  · refine fin 0 (.inl rfl) fun v r _ h2 => ?_
    simp [exprValue, EAct.change, Lit.int?] at h2
    exact h2.symm
  · refine fin 1 (.inr (.inl rfl)) fun v r _ h2 => ?_
    simp [exprValue, EAct.change, Lit.int?] at h2
    exact h2.symm
  · rename_i h
    refine fin (-1) (.inr (.inr ⟨rfl, h.1⟩)) fun v r _ h2 => ?_
    simp [exprValue, EAct.change, Lit.int?] at h2
    exact h2.symm

/-- `e` is the whole expression of `s`, which applies `-`, `~` or `!` to an
integer. -/
structure IntUn (P : Platform) (l : Lang) (s : UnSite) (e : ExprSite) : Prop where
  self : e.self = s.self
  op : s.op.isSelfInverse = true
  rvalue : s.self.lvalue = false
  subRvalue : s.sub.lvalue = false
  subInt : s.sub.ty.isInteger = true
  arith : s.op ≠ .lnot →
    s.self.ty = s.sub.ty ∧ P.prom s.sub.ty = s.sub.ty ∧ s.sub.ty.isBool = false
  lnotCpp : s.op = .lnot → l.cpp = true → s.sub.ty = .bool ∧ s.self.ty = .bool
  lnotC : s.op = .lnot → l.cpp = false → s.self.ty = .int
  notBinary : e.binOp = none
  notArg : e.beforeLogicalArgRedundant l = false
  /-- if clang has determined a value, it is the value -/
  int : ∀ x w, s.sub.Value P l x → P.un l s.sub.ty s.self.ty x s.op = some w →
    ∀ c, s.self.intVal = some c → w = c
  bool : ∀ x w, s.sub.Value P l x → P.un l s.sub.ty s.self.ty x s.op = some w →
    s.self.ty.isBool = true → ∀ b, s.self.boolVal = some b → w = ofBool b

/-- The value of the expression when an action is applied (`none`: the
original), where defined. -/
def UnSite.value (P : Platform) (l : Lang) (s : UnSite) (x : Int) : Option Act → Option Int
  | some (.un y) =>
    match y.change with
    | .op o => P.un l s.sub.ty s.self.ty x o
    | .operand => some (P.conv l s.self.ty x)
  | K => (P.un l s.sub.ty s.self.ty x s.op).bind fun v => exprValue P l s.self.ty v K

/-- The actions offered for the operator, including the decision of the
visitor. -/
def UnSite.kept (l : Lang) (o : Options) (s : UnSite) (i j : Nat) : List Act :=
  (s.handle o.optimise).flatMap fun s => (s.apply l o i j).group.acts

/-- Dropped although not covered. -/
def UnSite.exception (l : Lang) (s : UnSite) (D : Act) : Prop :=
  (s.op = .minus ∧ s.sub.ty.isSigned l = false ∧ D = .un .ReplaceWithOperand) ∨
  (s.op = .not ∧ s.sub.ty.isSigned l = false ∧ D = .un .ReplaceWithMinus) ∨
  (s.op = .lnot ∧ l.cpp = false ∧ D = .un .ReplaceWithOperand) ∨
  (s.op = .minus ∧ s.sub.isOne = true ∧ D = .un .ReplaceWithNot)

section
variable {P : Platform} {l : Lang} {s : UnSite} {e : ExprSite}

theorem IntUn.selfInt (he : IntUn P l s e) : s.self.ty.isInteger = true := by
  by_cases h : s.op = .lnot
  · cases hl : l.cpp
    · rw [he.lnotC h hl]; rfl
    · rw [(he.lnotCpp h hl).2]; rfl
  · rw [(he.arith h).1]; exact he.subInt

/-- The original yields a value of the expression. -/
theorem IntUn.value (hP : P.Promotes l) (he : IntUn P l s e) {x w : Int}
    (hx : s.sub.Value P l x) (hw : P.un l s.sub.ty s.self.ty x s.op = some w) :
    e.self.Value P l w := by
  rw [he.self]
  refine ⟨?_, fun c hc => he.int x w hx hw c hc, fun hb b h => he.bool x w hx hw hb b h⟩
  have hop := he.op
  cases h : s.op <;> rw [h] at hop hw <;> simp [UOp.isSelfInverse] at hop
  case lnot =>
    rw [un_lnot] at hw
    rw [← Option.some.inj hw]
    split
    · exact P.holds_one ..
    · exact P.holds_zero ..
  case minus =>
    obtain ⟨h1, h2, h3⟩ := he.arith (by simp [h])
    simp only [Platform.un, h1, h2, Option.map_eq_some_iff] at hw
    obtain ⟨r, hr, rfl⟩ := hw
    rw [h1]
    exact P.holds_conv ..
  case not =>
    obtain ⟨h1, h2, h3⟩ := he.arith (by simp [h])
    simp only [Platform.un, h1, h2] at hw
    rw [h1, ← Option.some.inj hw]
    exact P.holds_conv ..

/-- A constant is still offered unless it is the value of the expression. -/
theorem uconst_kept {o : Options} {i j k m : Nat} (hP : P.Promotes l) (he : IntUn P l s e) (c : Int)
    (hc : c = 0 ∨ c = 1 ∨ (c = -1 ∧ s.self.ty.isSigned l = true)) :
    ∃ K, (∀ y, K = some y → y ∈ s.kept l o i j ∨ y ∈ (e.apply l o k m).group.acts) ∧
      ∀ x w, s.sub.Value P l x → s.value P l x none = some w → s.value P l x K = some c := by
  have hbb : e.beforeBinaryRedundant l = false := by
    unfold ExprSite.beforeBinaryRedundant; rw [he.notBinary]
  obtain ⟨K, hK, hKv⟩ := econst_kept (P := P) (l := l) (o := o) (e := e) (k := k) (m := m)
    (he.self ▸ he.rvalue) (he.self ▸ he.selfInt) hbb c (he.self ▸ hc)
  refine ⟨K, fun y hy => .inr (hK y hy), fun x w hx hw => ?_⟩
  have hw' : P.un l s.sub.ty s.self.ty x s.op = some w := by
    simpa [UnSite.value, exprValue] using hw
  have := hKv w (he.value hP hx hw')
  rw [he.self] at this
  cases K with
  | none => simpa [UnSite.value, hw'] using this
  | some y =>
    cases y with
    | un z => simp [exprValue] at this
    | _ => simpa [UnSite.value, hw'] using this

end

/-- Minus one, converted to `int`. -/
theorem un_minus_int {P : Platform} {l : Lang} (hP : P.Promotes l) {t : BTy} {r : Int}
    (h : P.un l t .int 1 .minus = some r) : r = -1 := by
  have hint : BTy.isSigned l .int = true := rfl
  simp only [Platform.un] at h
  cases hs : (P.prom t).isSigned l with
  | true =>
    rw [Platform.result_holds ((P.holds_minusOne _).2 hs)] at h
    simp only [Option.map_some, Option.some.injEq] at h
    rw [← h, Platform.conv_holds ((P.holds_minusOne _).2 hint)]
  | false =>
    simp only [Platform.result, hs, Bool.false_eq_true, if_false, Option.map_some,
      Option.some.injEq] at h
    have hn : ¬ P.Holds l (P.prom t) (-1) := by rw [P.holds_minusOne, hs]; simp
    have hw := hP.wide t hs
    have e1 : P.conv l (P.prom t) (-1) = 2 ^ P.width (P.prom t) - 1 := by
      have h4 := P.four_le (P.prom t)
      simp only [Platform.conv, hP.notBool, hn, hs, Bool.false_eq_true, if_false]
      have : (-1 : Int) % 2 ^ P.width (P.prom t)
          = (2 ^ P.width (P.prom t) - 1) % 2 ^ P.width (P.prom t) := by
        rw [← Int.add_emod_right]
        congr 1
      rw [this]
      exact Int.emod_eq_of_lt (by omega) (by omega)
    have h4 := P.four_le .int
    obtain ⟨d, hd⟩ : ∃ d, P.width (P.prom t) = P.width .int + d := ⟨_, (Nat.add_sub_cancel' hw).symm⟩
    have hp : (2 : Int) ^ P.width (P.prom t) = 2 ^ P.width .int * 2 ^ d := by rw [hd, Int.pow_add]
    have hd1 : (1 : Int) ≤ 2 ^ d := Int.pow_pos (by decide)
    have hbig : (2 : Int) ^ P.width .int ≤ 2 ^ P.width (P.prom t) := by
      rw [hp]
      have := Int.mul_le_mul_of_nonneg_left hd1 (c := 2 ^ P.width .int) (by omega)
      omega
    have hni : ¬ P.Holds l .int (2 ^ P.width (P.prom t) - 1) := by
      unfold Platform.Holds Platform.hi
      simp only [BTy.isBool, hint, Bool.false_eq_true, if_false, if_true]
      have : (2 : Int) ^ P.width .int = 2 * 2 ^ (P.width .int - 1) := by
        have := P.width_gt .int
        obtain ⟨k, hk⟩ : ∃ k, P.width .int = k + 1 := ⟨P.width .int - 1, by omega⟩
        rw [hk, Int.pow_succ, Nat.add_sub_cancel, Int.mul_comm]
      have := P.two_le .int
      omega
    rw [e1] at h
    simp only [Platform.conv, hni, hint, BTy.isBool, Bool.false_eq_true, if_false, if_true] at h
    rw [← h]
    have e2 : (2 : Int) ^ P.width (P.prom t) - 1
        = -1 + ((2 ^ P.width .int : Nat) : Int) * 2 ^ d := by
      rw [hp]; simp; omega
    rw [e2, Int.add_mul_bmod_self_left]
    apply Int.bmod_eq_of_le_mul_two
    · simp; omega
    · simp; omega

/-- The actions offered for an operator on an integer that is not an
l-value. -/
theorem UnSite.mem_acts (s : UnSite) (l : Lang) (o : Options) (i j : Nat)
    (hr : s.self.lvalue = false) (hsr : s.sub.lvalue = false)
    (hi : s.sub.ty.isInteger = true) (D : Act) :
    D ∈ (s.apply l o i j).group.acts ↔
      (D = .un .ReplaceWithNot ∧ s.op ≠ .not ∧ (o.optimise = false ∨ s.isRedundant .not = false)) ∨
      (D = .un .ReplaceWithMinus ∧ s.op ≠ .minus ∧
        (o.optimise = false ∨ s.isRedundant .minus = false)) ∨
      (D = .un .ReplaceWithLNot ∧ s.op ≠ .lnot ∧
        (o.optimise = false ∨ s.isRedundant .lnot = false)) ∨
      (D = .un .ReplaceWithOperand ∧ (o.optimise = false ∨ s.op.isSelfInverse = false)) := by
  have hf : s.sub.ty.isFloat = false := by revert hi; simp [BTy.isInteger]
  have h1 : UOp.not.action = .ReplaceWithNot := rfl
  have h2 : UOp.minus.action = .ReplaceWithMinus := rfl
  have h3 : UOp.lnot.action = .ReplaceWithLNot := rfl
  have hv : ∀ op, s.isValid op = true ↔
      ¬ (op = .preInc ∨ op = .preDec ∨ op = .postInc ∨ op = .postDec) := by
    intro op
    unfold UnSite.isValid
    simp only [hsr, hr, hf]
    cases op <;> simp
  rw [s.group_acts]
  unfold UnSite.clauses UnSite.replacements
  simp only [List.map_append, List.map_map, List.mem_append, List.mem_map, List.mem_filter,
    unaryCandidates, List.mem_cons, List.not_mem_nil, or_false, Function.comp]
  constructor
  · rintro (⟨op, ⟨hop, hc⟩, rfl⟩ | ⟨a, ha, rfl⟩)
    · have hv' := hv op
      rcases hop with rfl | rfl | rfl | rfl | rfl | rfl | rfl <;> simp at hv' hc <;> grind
    · rw [mem_ite_nil] at ha
      simp at ha
      grind
  · rintro (⟨rfl, h, h'⟩ | ⟨rfl, h, h'⟩ | ⟨rfl, h, h'⟩ | ⟨rfl, h⟩)
    · refine .inl ⟨.not, ⟨by simp, ?_⟩, by rw [h1]⟩
      have := (hv .not).2 (by simp)
      grind
    · refine .inl ⟨.minus, ⟨by simp, ?_⟩, by rw [h2]⟩
      have := (hv .minus).2 (by simp)
      grind
    · refine .inl ⟨.lnot, ⟨by simp, ?_⟩, by rw [h3]⟩
      have := (hv .lnot).2 (by simp)
      grind
    · refine .inr ⟨(.arg .arg, .ReplaceWithOperand), ?_, rfl⟩
      rw [mem_ite_nil]
      simp [h]

theorem UnSite.mem_kept (s : UnSite) (l : Lang) (o : Options) (i j : Nat) (D : Act) :
    D ∈ s.kept l o i j ↔
      (o.optimise = false ∨ s.constUnary = false) ∧ D ∈ (s.apply l o i j).group.acts := by
  unfold UnSite.kept UnSite.handle
  cases o.optimise <;> cases s.constUnary <;> simp

/-- C29, replaced and removed operators, as far as it holds.  Wherever the
original and the dropped mutant are both defined, the dropped mutant yields the
same as a certain kept mutant or the original, with the exceptions stated. -/
theorem C29_operator_partial (P : Platform) (l : Lang) (hP : P.Promotes l) (o o' : Options)
    (s : UnSite) (e : ExprSite) (i j k m i' j' : Nat) (he : IntUn P l s e)
    (D : Act) (hD : D ∈ s.kept l o i' j') (hD' : D ∉ s.kept l o' i j)
    (hex : ¬ s.exception l D) :
    ∃ K, (∀ y, K = some y → y ∈ s.kept l o' i j ∨ y ∈ (e.apply l o' k m).group.acts) ∧
      ∀ x w r, s.sub.Value P l x → s.value P l x none = some w →
        s.value P l x (some D) = some r → s.value P l x K = some r := by
  have fin : ∀ c, (c = 0 ∨ c = 1 ∨ (c = -1 ∧ s.self.ty.isSigned l = true)) →
      (∀ x r, s.sub.Value P l x → s.value P l x (some D) = some r → r = c) →
      ∃ K, (∀ y, K = some y → y ∈ s.kept l o' i j ∨ y ∈ (e.apply l o' k m).group.acts) ∧
        ∀ x w r, s.sub.Value P l x → s.value P l x none = some w →
          s.value P l x (some D) = some r → s.value P l x K = some r := by
    intro c hc h
    obtain ⟨K, hK, hKv⟩ := uconst_kept (o := o') (i := i) (j := j) (k := k) (m := m) hP he c hc
    exact ⟨K, hK, fun x w r h1 h2 h3 => by rw [hKv x w h1 h2, h x r h1 h3]⟩
  have hz := isZero_int he.subInt
  have ho1 := isOne_int he.subInt
  have hf : s.sub.ty.isFloat = false := by have := he.subInt; revert this; simp [BTy.isInteger]
  rw [s.mem_kept, s.mem_acts l _ _ _ he.rvalue he.subRvalue he.subInt] at hD hD'
  have hop : s.op = .minus ∨ s.op = .not ∨ s.op = .lnot := by
    have := he.op
    cases h : s.op <;> simp [h, UOp.isSelfInverse] at this <;> simp
  -- the replacement by `!`
  have hL : D = .un .ReplaceWithLNot → s.op ≠ .lnot → (s.sub.intVal = some 0 ∨ s.sub.intVal = some 1) →
      ∃ c, (c = 0 ∨ c = 1 ∨ (c = -1 ∧ s.self.ty.isSigned l = true)) ∧
      (∀ x r, s.sub.Value P l x → s.value P l x (some D) = some r → r = c) := by
    rintro rfl h hc
    rcases hc with hc | hc
    · refine ⟨1, by simp, fun x r h1 h2 => ?_⟩
      simp only [UnSite.value, UAct.change, un_lnot, h1.int _ hc] at h2
      simpa using h2.symm
    · refine ⟨0, by simp, fun x r h1 h2 => ?_⟩
      simp only [UnSite.value, UAct.change, un_lnot, h1.int _ hc] at h2
      simpa using h2.symm
  -- the replacement by `-`
  have hM : D = .un .ReplaceWithMinus → s.op ≠ .minus →
      (s.sub.intVal = some 0 ∨ s.sub.intVal = some 1 ∨ s.sub.intVal = some (-1)) →
      ∃ c, (c = 0 ∨ c = 1 ∨ (c = -1 ∧ s.self.ty.isSigned l = true)) ∧
      (∀ x r, s.sub.Value P l x → s.value P l x (some D) = some r → r = c) := by
    rintro rfl h hc
    rcases hc with hc | hc | hc
    · refine ⟨0, by simp, fun x r h1 h2 => ?_⟩
      simp only [UnSite.value, UAct.change, h1.int _ hc] at h2
      rw [un_minus _ _ _ (by exact P.holds_zero ..) (by exact P.holds_zero ..)] at h2
      simpa using h2.symm
    · rcases hop.resolve_left h with hn | hn
      · obtain ⟨h3, h4, h5⟩ := he.arith (by simp [hn])
        have hs : s.sub.ty.isSigned l = true := by
          cases hs : s.sub.ty.isSigned l with
          | true => rfl
          | false => exact absurd (.inr (.inl ⟨hn, hs, rfl⟩)) hex
        refine ⟨-1, by simp [h3, hs], fun x r h1 h2 => ?_⟩
        simp only [UnSite.value, UAct.change, h1.int _ hc] at h2
        rw [un_minus _ _ _ ((P.holds_minusOne _).2 (by rw [h4]; exact hs))
          ((P.holds_minusOne _).2 (h3 ▸ hs))]
          at h2
        simpa using h2.symm
      · cases hl : l.cpp with
        | true =>
          obtain ⟨h3, h4⟩ := he.lnotCpp hn hl
          refine ⟨1, by simp, fun x r h1 h2 => ?_⟩
          simp only [UnSite.value, UAct.change, h1.int _ hc, Platform.un, h3, h4,
            Platform.result_holds ((P.holds_minusOne _).2 hP.bool)] at h2
          simpa [BTy.isBool, Platform.conv] using h2.symm
        | false =>
          have h3 := he.lnotC hn hl
          refine ⟨-1, by simp [h3, BTy.isSigned], fun x r h1 h2 => ?_⟩
          simp only [UnSite.value, UAct.change, h1.int _ hc, h3] at h2
          exact un_minus_int hP h2
    · refine ⟨1, by simp, fun x r h1 h2 => ?_⟩
      simp only [UnSite.value, UAct.change, h1.int _ hc] at h2
      rw [un_minus _ _ _ (by exact P.holds_one ..) (by exact P.holds_one ..)] at h2
      simpa using h2.symm
  -- the operand
  have hO : D = .un .ReplaceWithOperand →
      (s.sub.intVal = some 0 ∨ s.sub.intVal = some 1) →
      ∃ c, (c = 0 ∨ c = 1 ∨ (c = -1 ∧ s.self.ty.isSigned l = true)) ∧
      (∀ x r, s.sub.Value P l x → s.value P l x (some D) = some r → r = c) := by
    rintro rfl hc
    rcases hc with hc | hc
    · refine ⟨0, by simp, fun x r h1 h2 => ?_⟩
      simp only [UnSite.value, UAct.change, h1.int _ hc,
        Platform.conv_holds (P.holds_zero ..)] at h2
      simpa using h2.symm
    · refine ⟨1, by simp, fun x r h1 h2 => ?_⟩
      simp only [UnSite.value, UAct.change, h1.int _ hc,
        Platform.conv_holds (P.holds_one ..)] at h2
      simpa using h2.symm
  have hcu : s.constUnary = true → (s.sub.intVal = some 0 ∨ s.sub.intVal = some 1) := by
    unfold UnSite.constUnary
    simp only [Bool.or_eq_true, Bool.and_eq_true, hz, ho1]
    grind
  rcases hD.2 with ⟨rfl, hne, _⟩ | ⟨rfl, hne, _⟩ | ⟨rfl, hne, _⟩ | ⟨rfl, _⟩
  · -- `~`
    have h1 : s.isRedundant .not = false := by simp [UnSite.isRedundant]
    have h2 : s.constUnary = true := by
      simp [hne, h1] at hD'
      exact hD'.2
    unfold UnSite.constUnary at h2
    simp [hne] at h2
    exact absurd (.inr (.inr (.inr ⟨h2.1, h2.2, rfl⟩))) hex
  · have h1 : s.sub.intVal = some 0 ∨ s.sub.intVal = some 1 ∨ s.sub.intVal = some (-1) := by
      by_cases hc : s.constUnary = true
      · rcases hcu hc with h | h <;> simp [h]
      · simp [hne, hc] at hD'
        have := hD'.2
        simp [UnSite.isRedundant, ExprInfo.isInt, ExprInfo.isFlt, he.subInt, hf] at this
        grind
    obtain ⟨c, hc, h⟩ := hM rfl hne h1
    exact fin c hc h
  · have h1 : s.sub.intVal = some 0 ∨ s.sub.intVal = some 1 := by
      by_cases hc : s.constUnary = true
      · exact hcu hc
      · simp [hne, hc] at hD'
        have := hD'.2
        simp [UnSite.isRedundant, ExprInfo.isInt, ExprInfo.isFlt, he.subInt, hf] at this
        grind
    obtain ⟨c, hc, h⟩ := hL rfl hne h1
    exact fin c hc h
  · by_cases hc : s.constUnary = true
    · obtain ⟨c, hc, h⟩ := hO rfl (hcu hc)
      exact fin c hc h
    have hval : ∀ x w y, s.value P l x none = some w →
        s.value P l x (some (.expr y)) = exprValue P l s.self.ty w (some (.expr y)) := by
      intro x w y hw
      have hw' : P.un l s.sub.ty s.self.ty x s.op = some w := by
        simpa [UnSite.value, exprValue] using hw
      simp [UnSite.value, hw']
    have hwv : ∀ x w, s.value P l x none = some w → P.un l s.sub.ty s.self.ty x s.op = some w := by
      intro x w hw
      simpa [UnSite.value, exprValue] using hw
    have hbb : e.beforeBinaryRedundant l = false := by
      unfold ExprSite.beforeBinaryRedundant; rw [he.notBinary]
    have hmem := fun D => e.mem_acts l o' k m (he.self ▸ he.rvalue) (he.self ▸ he.selfInt) D
    simp only [ExprSite.insertionRedundant, hbb, he.notArg, he.self, Bool.false_eq_true,
      if_false] at hmem
    have hsf : s.self.ty.isFloat = false := by
      have := he.selfInt; revert this; simp [BTy.isInteger]
    rcases hop with hn | hn | hn
    · -- `-x`
      obtain ⟨h3, h4, h5⟩ := he.arith (by simp [hn])
      have hs : s.sub.ty.isSigned l = true := by
        cases hs : s.sub.ty.isSigned l with
        | true => rfl
        | false => exact absurd (.inl ⟨hn, hs, rfl⟩) hex
      have horig : ∀ x w, s.sub.Value P l x → s.value P l x none = some w →
          w = -x ∧ P.Holds l s.sub.ty w := by
        intro x w hx hw
        have := hwv x w hw
        rw [hn] at this
        simp only [Platform.un, h3, h4, Platform.result, hs, if_true, Option.map_eq_some_iff] at this
        obtain ⟨r, h6, h7⟩ := this
        split at h6
        · rename_i hh
          cases h6
          rw [Platform.conv_holds hh] at h7
          exact ⟨h7.symm, h7 ▸ hh⟩
        · cases h6
      have hd : ∀ x r, s.sub.Value P l x → s.value P l x (some (.un .ReplaceWithOperand)) = some r →
          r = x := by
        intro x r hx h
        simp only [UnSite.value, UAct.change, h3, Platform.conv_holds hx.holds] at h
        exact (Option.some.inj h).symm
      cases hr : e.minusRedundant l with
      | false =>
        refine ⟨some (.expr .InsertMinus), ?_, fun x w r h1 h2 h6 => ?_⟩
        · rintro y ⟨⟩
          refine .inr ((hmem _).2 ?_)
          simp [hr, h3, hs]
        · obtain ⟨rfl, hw⟩ := horig x w h1 h2
          rw [hval x _ _ h2, hd x r h1 h6]
          have := un_minus (l := l) s.self.ty s.self.ty (-x)
            (by rw [h3, h4, Int.neg_neg]; exact h1.holds) (by rw [h3, Int.neg_neg]; exact h1.holds)
          rw [Int.neg_neg] at this
          exact this
      | true =>
        have hr' : s.self.intVal = some 0 ∨ s.self.intVal = some 1 ∨ s.self.intVal = some (-1) := by
          simp [ExprSite.minusRedundant, he.self, ExprInfo.isInt, ExprInfo.isFlt, he.selfInt,
            hsf] at hr
          grind
        have : ∃ c, (c = 0 ∨ c = 1 ∨ (c = -1 ∧ s.self.ty.isSigned l = true)) ∧
            s.self.intVal = some (-c) := by
          rcases hr' with h | h | h
          · exact ⟨0, by simp, h⟩
          · exact ⟨-1, by simp [h3, hs], by rw [h]; rfl⟩
          · exact ⟨1, by simp, h⟩
        obtain ⟨c, hc, hcv⟩ := this
        obtain ⟨K, hK, hKv⟩ := uconst_kept (o := o') (i := i) (j := j) (k := k) (m := m) hP he c hc
        refine ⟨K, hK, fun x w r h1 h2 h6 => ?_⟩
        rw [hKv x w h1 h2, hd x r h1 h6]
        have h7 := he.int x w h1 (hwv x w h2) _ hcv
        have h8 := (horig x w h1 h2).1
        congr 1
        omega
    · -- `~x`
      obtain ⟨h3, h4, h5⟩ := he.arith (by simp [hn])
      have horig : ∀ x w, s.sub.Value P l x → s.value P l x none = some w →
          w = P.flip l s.sub.ty x := by
        intro x w hx hw
        have := hwv x w hw
        rw [hn] at this
        simp only [Platform.un, h3, h4, Platform.conv_holds (P.holds_flip _ h5)] at this
        exact (Option.some.inj this).symm
      have hd : ∀ x r, s.sub.Value P l x → s.value P l x (some (.un .ReplaceWithOperand)) = some r →
          r = x := by
        intro x r hx h
        simp only [UnSite.value, UAct.change, h3, Platform.conv_holds hx.holds] at h
        exact (Option.some.inj h).symm
      cases hr : e.notRedundant l with
      | false =>
        refine ⟨some (.expr .InsertNot), ?_, fun x w r h1 h2 h6 => ?_⟩
        · rintro y ⟨⟩
          refine .inr ((hmem _).2 ?_)
          simp [hr, h3, h5]
        · rw [hval x _ _ h2, hd x r h1 h6, horig x w h1 h2]
          show P.un l s.self.ty s.self.ty _ .not = _
          simp only [Platform.un, h3, h4, Platform.flip_flip h1.holds h5,
            Platform.conv_holds h1.holds]
      | true =>
        simp [ExprSite.notRedundant, he.self, ExprInfo.isInt, h3] at hr
        obtain ⟨hs, hr⟩ := hr
        have : ∃ c, (c = 0 ∨ c = 1 ∨ (c = -1 ∧ s.self.ty.isSigned l = true)) ∧
            s.self.intVal = some (-c - 1) := by
          by_cases h : s.self.intVal = some 0
          · exact ⟨-1, by simp [h3, hs], by rw [h]; rfl⟩
          · exact ⟨0, by simp, by grind⟩
        obtain ⟨c, hc, hcv⟩ := this
        obtain ⟨K, hK, hKv⟩ := uconst_kept (o := o') (i := i) (j := j) (k := k) (m := m) hP he c hc
        refine ⟨K, hK, fun x w r h1 h2 h6 => ?_⟩
        rw [hKv x w h1 h2, hd x r h1 h6]
        have h7 := he.int x w h1 (hwv x w h2) _ hcv
        have h8 := horig x w h1 h2
        rw [Platform.flip_signed h1.holds hs] at h8
        congr 1
        omega
    · -- `!x`
      cases hl : l.cpp with
      | false => exact absurd (.inr (.inr (.inl ⟨hn, hl, rfl⟩))) hex
      | true =>
        obtain ⟨h3, h4⟩ := he.lnotCpp hn hl
        have h01 : ∀ x, s.sub.Value P l x → x = 0 ∨ x = 1 := by
          intro x hx
          have := hx.holds
          rw [h3] at this
          simp [Platform.Holds, Platform.lo, Platform.hi, BTy.isBool] at this
          omega
        have horig : ∀ x w, s.sub.Value P l x → s.value P l x none = some w → w = 1 - x := by
          intro x w hx hw
          have := hwv x w hw
          rw [hn, un_lnot] at this
          rcases h01 x hx with rfl | rfl <;> simp at this <;> omega
        have hd : ∀ x r, s.sub.Value P l x →
            s.value P l x (some (.un .ReplaceWithOperand)) = some r → r = x := by
          intro x r hx h
          have hh := hx.holds
          rw [h3] at hh
          simp only [UnSite.value, UAct.change, h4, Platform.conv_holds hh] at h
          exact (Option.some.inj h).symm
        cases hr : e.lnotRedundant with
        | false =>
          refine ⟨some (.expr .InsertLNot), ?_, fun x w r h1 h2 h6 => ?_⟩
          · rintro y ⟨⟩
            refine .inr ((hmem _).2 ?_)
            simp [hr]
          · rw [hval x _ _ h2, hd x r h1 h6, horig x w h1 h2]
            show P.un l s.self.ty s.self.ty _ .lnot = _
            rw [un_lnot]
            rcases h01 x h1 with rfl | rfl <;> rfl
        | true =>
          -- the value is known
          have : ∃ c, ∀ x w, s.sub.Value P l x → s.value P l x none = some w → w = c := by
            simp only [ExprSite.lnotRedundant, he.self, Bool.or_eq_true, Bool.and_eq_true,
              Option.isSome_iff_exists] at hr
            rcases hr with ⟨hb, b, hb'⟩ | ⟨c, hc⟩
            · exact ⟨ofBool b, fun x w h1 h2 => he.bool x w h1 (hwv x w h2) hb b hb'⟩
            · exact ⟨c, fun x w h1 h2 => he.int x w h1 (hwv x w h2) c hc⟩
          obtain ⟨c, hcw⟩ := this
          have hcase : ∀ d, (d = 0 ∨ d = 1) → 1 - c = d →
              ∃ K, (∀ y, K = some y →
                  y ∈ s.kept l o' i j ∨ y ∈ (e.apply l o' k m).group.acts) ∧
                ∀ x w r, s.sub.Value P l x → s.value P l x none = some w →
                  s.value P l x (some (.un .ReplaceWithOperand)) = some r →
                  s.value P l x K = some r := by
            intro d hd' hcd
            obtain ⟨K, hK, hKv⟩ := uconst_kept (o := o') (i := i) (j := j) (k := k) (m := m) hP he d
              (by omega)
            refine ⟨K, hK, fun x w r h1 h2 h6 => ?_⟩
            rw [hKv x w h1 h2, hd x r h1 h6]
            have h7 := hcw x w h1 h2
            have h8 := horig x w h1 h2
            congr 1
            omega
          by_cases h0 : c = 0
          · exact hcase 1 (.inr rfl) (by omega)
          by_cases h1 : c = 1
          · exact hcase 0 (.inl rfl) (by omega)
          refine ⟨none, (fun _ h => nomatch h), fun x w r h1' h2 _ => ?_⟩
          have h7 := hcw x w h1' h2
          have h8 := horig x w h1' h2
          have := h01 x h1'
          omega

/-- Operators other than `-`, `~` and `!`: nothing is dropped, because clang
finds no constant value for the operand of `++` and `--`. -/
theorem C29_incdec (l : Lang) (o o' : Options) (s : UnSite) (i j i' j' : Nat)
    (hop : s.op.isSelfInverse = false) (h1 : s.sub.intVal = none) (h2 : s.sub.floatVal = none) :
    s.kept l o i j = s.kept l o' i' j' := by
  have hr : ∀ x, s.isRedundant x = false := by
    simp [UnSite.isRedundant, ExprInfo.isInt, ExprInfo.isFlt, h1, h2]
  have hc : s.constUnary = false := by
    revert hop
    simp [UnSite.constUnary]
    cases s.op <;> simp [UOp.isSelfInverse]
  simp [UnSite.kept, UnSite.handle, hc, s.group_acts, UnSite.clauses, UnSite.replacements, hr, hop]

theorem Sample.platform_promotes : Sample.platform.Promotes Sample.cpp := by
  refine ⟨?_, by intro t; cases t <;> rfl, by intro t; cases t <;> decide, rfl,
    by intro t; cases t <;> decide⟩
  intro t v hi h
  cases t <;> simp [BTy.isInteger, BTy.isFloat] at hi <;>
    simp [Platform.Holds, Platform.lo, Platform.hi, Sample.platform, BTy.isSigned, BTy.isBool,
      Sample.cpp] at h ⊢ <;> omega

theorem Sample.platform_promotes_c : Sample.platform.Promotes Sample.c := by
  refine ⟨?_, by intro t; cases t <;> rfl, by intro t; cases t <;> decide, rfl,
    by intro t; cases t <;> decide⟩
  intro t v hi h
  cases t <;> simp [BTy.isInteger, BTy.isFloat] at hi <;>
    simp [Platform.Holds, Platform.lo, Platform.hi, Sample.platform, BTy.isSigned, BTy.isBool,
      Sample.c] at h ⊢ <;> omega

/-- `-x`, `~x` on a value of type `t` that is not a constant. -/
def Sample.unOf (op : UOp) (t : BTy) : UnSite :=
  Sample.un op { Sample.intVal with ty := t } { Sample.intVal with ty := t }

def Sample.unExpr (t : BTy) : ExprSite := Sample.expr { Sample.intVal with ty := t }

theorem Sample.unOf_int (op : UOp) (t : BTy) (l : Lang) (h : op = .minus ∨ op = .not)
    (hi : t.isInteger = true) (hp : Sample.platform.prom t = t) (hb : t.isBool = false) :
    IntUn Sample.platform l (Sample.unOf op t) (Sample.unExpr t) := by
  refine ⟨rfl, by rcases h with rfl | rfl <;> rfl, rfl, rfl, hi, fun _ => ⟨rfl, hp, hb⟩, ?_, ?_, rfl,
    by simp [ExprSite.beforeLogicalArgRedundant, Sample.unExpr, Sample.expr], nofun, nofun⟩
  · rintro rfl; simp at h
  · rintro rfl; simp at h

/-- The hypotheses are met by `-x`; the dropped action is the removal of the
minus sign. -/
example : ∃ K, (∀ y, K = some y →
      y ∈ (Sample.unOf .minus .int).kept Sample.cpp Sample.opts 0 0 ∨
      y ∈ ((Sample.unExpr .int).apply Sample.cpp Sample.opts 0 0).group.acts) ∧
    ∀ x w r, (Sample.unOf .minus .int).sub.Value Sample.platform Sample.cpp x →
      (Sample.unOf .minus .int).value Sample.platform Sample.cpp x none = some w →
      (Sample.unOf .minus .int).value Sample.platform Sample.cpp x (some (.un .ReplaceWithOperand))
        = some r →
      (Sample.unOf .minus .int).value Sample.platform Sample.cpp x K = some r :=
  C29_operator_partial Sample.platform Sample.cpp Sample.platform_promotes Sample.noopt Sample.opts
    _ _ 0 0 0 0 0 0 (Sample.unOf_int .minus .int Sample.cpp (.inl rfl) rfl rfl rfl) _
    (by decide +kernel) (by decide +kernel)
    (by simp [UnSite.exception, Sample.unOf, Sample.un, BTy.isSigned, Sample.intVal])

/-- The hypotheses of `C29_insertion` are met by the constant 1, for which `-`
is dropped. -/
example : ∃ K, StillExpr Sample.cpp Sample.opts (Sample.expr (Sample.intConst 1)) 0 0 K ∧
    ∀ v r, (Sample.intConst 1).Value Sample.platform Sample.cpp v →
      exprValue Sample.platform Sample.cpp .int v (some (.expr .InsertMinus)) = some r →
      exprValue Sample.platform Sample.cpp .int v K = some r :=
  C29_insertion Sample.platform Sample.cpp Sample.platform_promotes Sample.noopt Sample.opts
    (Sample.expr (Sample.intConst 1)) 0 0 0 0 rfl rfl rfl rfl rfl _
    (by decide +kernel) (by decide +kernel)

def Sample.preIncSite : UnSite := Sample.un .preInc Sample.intVar Sample.intVar

example : Sample.preIncSite.op.isSelfInverse = false ∧ Sample.preIncSite.sub.intVal = none :=
  ⟨rfl, rfl⟩

/-- A case in which a dropped action yields something that neither the original
nor any action still offered yields, although the original is defined. -/
def UnSite.Uncovered (l : Lang) (s : UnSite) (e : ExprSite) (x r : Int) (D : Act) : Prop :=
  IntUn Sample.platform l s e ∧ s.sub.Value Sample.platform l x ∧
  D ∈ s.kept l Sample.noopt 0 0 ∧ D ∉ s.kept l Sample.opts 0 0 ∧
  (s.value Sample.platform l x none).isSome = true ∧
  s.value Sample.platform l x (some D) = some r ∧
  s.value Sample.platform l x none ≠ some r ∧
  ∀ K ∈ s.kept l Sample.opts 0 0 ++ (e.apply l Sample.opts 0 0).group.acts,
    s.value Sample.platform l x (some K) ≠ some r

/-- `-x` for unsigned `x`: the removal of the minus sign is dropped although
inserting another one is not offered. -/
theorem C29_unsigned_minus_false :
    UnSite.Uncovered Sample.cpp (Sample.unOf .minus .uint) (Sample.unExpr .uint) 7 7
      (.un .ReplaceWithOperand) :=
  ⟨Sample.unOf_int .minus .uint Sample.cpp (.inl rfl) rfl rfl rfl,
    ⟨by decide +kernel, nofun, nofun⟩,
    by decide +kernel, by decide +kernel, by decide +kernel, by decide +kernel, by decide +kernel,
    by decide +kernel⟩

/-- `!x` in C: the removal of `!` is dropped although inserting another one
only yields 0 or 1. -/
theorem C29_c_lnot_false :
    UnSite.Uncovered Sample.c (Sample.unOf .lnot .int) (Sample.unExpr .int) 5 5
      (.un .ReplaceWithOperand) := by
  refine ⟨⟨rfl, rfl, rfl, rfl, rfl, ?_, ?_, fun _ _ => rfl, rfl, rfl,
    (fun _ _ _ _ _ h => nomatch h), (fun _ _ _ _ h => absurd h (by decide))⟩,
    ⟨by decide +kernel, nofun, nofun⟩,
    by decide +kernel, by decide +kernel, by decide +kernel, by decide +kernel, by decide +kernel,
    by decide +kernel⟩
  · exact fun h => absurd rfl h
  · exact fun _ h => by simp [Sample.c] at h

/-- `-1`, of which clang knows the value. -/
def Sample.minusOne : UnSite := Sample.un .minus (Sample.intConst 1) (Sample.intConst (-1))

/-- `~1u`, of which clang knows the value. -/
def Sample.notOne : UnSite :=
  Sample.un .not { Sample.intConst 1 with ty := .uint }
    { Sample.intConst 4294967294 with ty := .uint }

/-- `-1`: the replacement by `~1` is dropped. -/
theorem C29_minus_one_false :
    UnSite.Uncovered Sample.cpp Sample.minusOne (Sample.expr (Sample.intConst (-1))) 1 (-2)
      (.un .ReplaceWithNot) := by
  refine ⟨⟨rfl, rfl, rfl, rfl, rfl, fun _ => ⟨rfl, rfl, rfl⟩, nofun, nofun, rfl, rfl, ?_,
    fun _ _ _ _ h => absurd h (by decide)⟩,
    ⟨by decide +kernel, by rintro c ⟨⟩; rfl, nofun⟩,
    by decide +kernel, by decide +kernel, by decide +kernel, by decide +kernel, by decide +kernel,
    by decide +kernel⟩
  rintro x w hx hw c ⟨⟩
  rw [hx.int 1 rfl] at hw
  have h : Sample.platform.un Sample.cpp Sample.minusOne.sub.ty Sample.minusOne.self.ty 1
      Sample.minusOne.op = some (-1) := by decide +kernel
  rw [h] at hw
  cases hw
  rfl

/-- `~1u`: the replacement by `-1u` is dropped. -/
theorem C29_unsigned_not_false :
    UnSite.Uncovered Sample.cpp Sample.notOne (Sample.expr Sample.notOne.self) 1 4294967295
      (.un .ReplaceWithMinus) := by
  refine ⟨⟨rfl, rfl, rfl, rfl, rfl, fun _ => ⟨rfl, rfl, rfl⟩, nofun, nofun, rfl, rfl, ?_,
    fun _ _ _ _ h => absurd h (by decide)⟩,
    ⟨by decide +kernel, by rintro c ⟨⟩; rfl, nofun⟩,
    by decide +kernel, by decide +kernel, by decide +kernel, by decide +kernel, by decide +kernel,
    by decide +kernel⟩
  rintro x w hx hw c ⟨⟩
  rw [hx.int 1 rfl] at hw
  have h : Sample.platform.un Sample.cpp Sample.notOne.sub.ty Sample.notOne.self.ty 1
      Sample.notOne.op = some 4294967294 := by decide +kernel
  rw [h] at hw
  cases hw
  rfl

end Dredd
