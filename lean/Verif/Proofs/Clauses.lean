/-
Normal form of the generators: every generator adds a list of clauses, each of
which is a returned expression paired with an action.  Helper lemmas; the
properties are in `Props/`.
-/
import Verif.Model.Apply

namespace Dredd

/-- Adding clauses one after another. -/
def runClauses {α} (track : Bool) (base : Nat) (g : GenSt α) (cs : List (RetE × α)) : GenSt α :=
  cs.foldl (fun g c => (g.clause track c.1).inst base c.2) g

/-- The lines for clauses numbered from `k`. -/
def guardsFrom {α} : Nat → List (RetE × α) → List Line
  | _, [] => []
  | k, c :: cs => .guard k c.1 :: guardsFrom (k + 1) cs

/-- The instances for clauses numbered from `k`. -/
def instsFrom {α} : Nat → List (RetE × α) → List (Nat × α)
  | _, [] => []
  | k, c :: cs => (k, c.2) :: instsFrom (k + 1) cs

theorem runClauses_nil {α} (track base) (g : GenSt α) : runClauses track base g [] = g := rfl

theorem runClauses_append {α} (track base) (g : GenSt α) (cs ds) :
    runClauses track base g (cs ++ ds) = runClauses track base (runClauses track base g cs) ds := by
  simp [runClauses, List.foldl_append]

theorem runClauses_eq {α} (track base) (g : GenSt α) (cs) :
    runClauses track base g cs =
      { lines := g.lines ++ (if track then [] else guardsFrom g.off cs)
        off := g.off + cs.length
        insts := g.insts ++ instsFrom (base + g.off) cs } := by
  induction cs generalizing g with
  | nil => cases track <;> simp [runClauses, guardsFrom, instsFrom]
  | cons c cs ih =>
    have : runClauses track base g (c :: cs)
        = runClauses track base ((g.clause track c.1).inst base c.2) cs := rfl
    rw [this, ih]
    cases track <;>
      simp [GenSt.clause, GenSt.inst, guardsFrom, instsFrom, Nat.add_assoc, Nat.add_comm 1]

@[simp] theorem instsFrom_ids {α} (k) (cs : List (RetE × α)) :
    (instsFrom k cs).map (·.1) = List.range' k cs.length := by
  induction cs generalizing k with
  | nil => rfl
  | cons c cs ih => simp [instsFrom, ih, List.range'_succ]

@[simp] theorem instsFrom_acts {α} (k) (cs : List (RetE × α)) :
    (instsFrom k cs).map (·.2) = cs.map (·.2) := by
  induction cs generalizing k with
  | nil => rfl
  | cons c cs ih => simp [instsFrom, ih]

@[simp] theorem instsFrom_length {α} (k) (cs : List (RetE × α)) :
    (instsFrom k cs).length = cs.length := by
  induction cs generalizing k with
  | nil => rfl
  | cons c cs ih => simp [instsFrom, ih]

/-- Clauses for the arguments of a binary operator. -/
def BinSite.argClauses (s : BinSite) (opt : Bool) : List (RetE × BAct) :=
  if opt && s.op.isRelational then []
  else if s.op.isAssign then []
  else
    (if !opt || !s.lhs.isSmallConst then [(.arg .arg1, .ReplaceWithLHS)] else [])
    ++ (if !opt || !s.rhs.isSmallConst then [(.arg .arg2, .ReplaceWithRHS)] else [])

/-- Clauses of a binary operator. -/
def BinSite.clauses (s : BinSite) (opt : Bool) : List (RetE × BAct) :=
  (s.replacements opt).map (fun op => (.bin op, op.action)) ++ s.argClauses opt

theorem foldl_map_clauses {α β} (track base) (f : β → RetE × α) (l : List β) (g : GenSt α) :
    l.foldl (fun g b => (g.clause track (f b).1).inst base (f b).2) g
      = runClauses track base g (l.map f) := by
  simp [runClauses, List.foldl_map]

theorem BinSite.genBody_eq (s : BinSite) (o : Options) (base : Nat) :
    s.genBody o base =
      runClauses o.track base { lines := if o.track then [] else [.quick (.bin s.op)] }
        (s.clauses o.optimise) := by
  unfold BinSite.genBody BinSite.clauses BinSite.genOps
  rw [runClauses_append]
  have h := foldl_map_clauses o.track base (fun op => (RetE.bin op, BOp.action op))
    (s.replacements o.optimise) { lines := if o.track then [] else [.quick (.bin s.op)] }
  simp only at h ⊢
  rw [h]
  generalize runClauses o.track base _ _ = g
  unfold BinSite.genArgs BinSite.argClauses
  split
  · rfl
  split
  · rfl
  split <;> split <;> rfl

/-- Clauses of a unary operator. -/
def UnSite.clauses (s : UnSite) (opt : Bool) : List (RetE × UAct) :=
  (s.replacements opt).map (fun op => (.un op, op.action))
  ++ (if !opt || !s.op.isSelfInverse then [(.arg .arg, .ReplaceWithOperand)] else [])

theorem UnSite.genBody_eq (s : UnSite) (o : Options) (base : Nat) :
    s.genBody o base =
      runClauses o.track base { lines := if o.track then [] else [.quick (.un s.op)] }
        (s.clauses o.optimise) := by
  unfold UnSite.genBody UnSite.clauses UnSite.genOps
  rw [runClauses_append]
  have h := foldl_map_clauses o.track base (fun op => (RetE.un op, UOp.action op))
    (s.replacements o.optimise) { lines := if o.track then [] else [.quick (.un s.op)] }
  simp only at h ⊢
  rw [h]
  split <;> rfl

/-- Clauses of an expression. -/
def ExprSite.clauses (s : ExprSite) (l : Lang) (opt : Bool) : List (RetE × EAct) :=
  (if !s.self.lvalue || !s.canMutateLValue then []
   else [(.ins .preInc, .InsertPreInc), (.ins .preDec, .InsertPreDec)])
  ++ (if s.self.lvalue then []
      else
        (if (s.self.ty.isBool || s.self.ty.isInteger)
            && (!opt || !s.insertionRedundant l .lnot) then [(.ins .lnot, .InsertLNot)] else [])
        ++ (if (s.self.ty.isInteger && !s.self.ty.isBool)
            && (!opt || !s.insertionRedundant l .not) then [(.ins .not, .InsertNot)] else [])
        ++ (if (s.self.ty.isSigned l || s.self.ty.isFloat)
            && (!opt || !s.insertionRedundant l .minus) then [(.ins .minus, .InsertMinus)] else []))
  ++ (if s.self.lvalue then []
      else
        (if s.self.ty.isBool && (!opt || (!s.self.isBoolConst true && !s.boolRedundant l true))
          then [(.lit (if l.cpp then .true_ else .one), .ReplaceWithTrue)] else [])
        ++ (if s.self.ty.isBool && (!opt || (!s.self.isBoolConst false && !s.boolRedundant l false))
          then [(.lit (if l.cpp then .false_ else .zero), .ReplaceWithFalse)] else [])
        ++ (if (s.self.ty.isInteger && !s.self.ty.isBool) && (!opt || !s.self.isInt 0)
          then [(.lit .zero, .ReplaceWithZeroInt)] else [])
        ++ (if (s.self.ty.isInteger && !s.self.ty.isBool) && (!opt || !s.self.isInt 1)
          then [(.lit .one, .ReplaceWithOneInt)] else [])
        ++ (if s.self.ty.isSigned l && (!opt || !s.self.isInt (-1))
          then [(.lit .minusOne, .ReplaceWithMinusOneInt)] else [])
        ++ (if s.self.ty.isFloat && (!opt || !s.self.isFlt .zero)
          then [(.lit .zeroF, .ReplaceWithZeroFloat)] else [])
        ++ (if s.self.ty.isFloat && (!opt || !s.self.isFlt .one)
          then [(.lit .oneF, .ReplaceWithOneFloat)] else [])
        ++ (if s.self.ty.isFloat && (!opt || !s.self.isFlt .minusOne)
          then [(.lit .minusOneF, .ReplaceWithMinusOneFloat)] else []))

theorem runClauses_ite {α} (track base) (c : Bool) (g : GenSt α) (x : RetE × α) :
    runClauses track base g (if c then [x] else [])
      = if c then (g.clause track x.1).inst base x.2 else g := by
  cases c <;> rfl

theorem ite_and_bool {α} (a b : Bool) (x y : α) :
    (if (a && b) = true then x else y) = if a = true then (if b = true then x else y) else y := by
  cases a <;> simp

theorem ExprSite.genBody_eq (s : ExprSite) (l : Lang) (o : Options) (base : Nat) :
    s.genBody l o base =
      runClauses o.track base { lines := if o.track then [] else [.quick (.arg .arg)] }
        (s.clauses l o.optimise) := by
  unfold ExprSite.genBody ExprSite.clauses ExprSite.genIns ExprSite.genConsts
  rw [runClauses_append, runClauses_append]
  have h1 : ∀ g, s.genInsLValue o.track base g = runClauses o.track base g
      (if !s.self.lvalue || !s.canMutateLValue then []
        else [(.ins .preInc, .InsertPreInc), (.ins .preDec, .InsertPreDec)]) := by
    intro g
    unfold ExprSite.genInsLValue
    split <;> rfl
  simp only [h1]
  generalize runClauses o.track base _ (if !s.self.lvalue || !s.canMutateLValue then _ else _) = g
  have h2 : ∀ g, s.genInsNonLValue l o.optimise o.track base g = runClauses o.track base g
      (if s.self.lvalue then []
      else
        (if (s.self.ty.isBool || s.self.ty.isInteger)
            && (!o.optimise || !s.insertionRedundant l .lnot) then [(.ins .lnot, .InsertLNot)] else [])
        ++ (if (s.self.ty.isInteger && !s.self.ty.isBool)
            && (!o.optimise || !s.insertionRedundant l .not) then [(.ins .not, .InsertNot)] else [])
        ++ (if (s.self.ty.isSigned l || s.self.ty.isFloat)
            && (!o.optimise || !s.insertionRedundant l .minus) then [(.ins .minus, .InsertMinus)]
            else [])) := by
    intro g
    unfold ExprSite.genInsNonLValue
    split
    · rfl
    · simp only [runClauses_append, runClauses_ite]
      simp only [ite_and_bool]
  rw [h2]
  generalize runClauses o.track base g _ = g
  cases hl : s.self.lvalue
  · simp only [Bool.not_false, if_true, Bool.false_eq_true, if_false]
    simp only [runClauses_append, runClauses_ite]
    unfold ExprSite.genBool ExprSite.genInt ExprSite.genFloat
    simp only [ite_and_bool]
    cases s.self.ty.isBool <;> cases s.self.ty.isInteger <;> cases s.self.ty.isFloat <;> simp
  · simp [runClauses]

end Dredd
