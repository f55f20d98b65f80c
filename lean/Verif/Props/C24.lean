/-
C24: replacement operators are type-correct wherever the original was.
-/
import Verif.Spec.Typing
import Verif.Proofs.Clauses
import Verif.Props.C41

namespace Dredd

/-- The type of an expression, from the facts about it. -/
def ExprInfo.ety (e : ExprInfo) : ETy := ⟨e.ty, e.lvalue, e.volatile, e.const⟩

/-- A binary operator is well typed with result `r`, and the type recorded for it
is that of the object it denotes, if it denotes one. -/
def BinSite.Typed (d : Dialect) (s : BinSite) (r : TRes) : Prop :=
  typeBin d s.op s.lhs.ety s.rhs.ety = some r ∧ ∀ q, r = .place q → s.resTy = q.ty

/-- A unary operator is well typed with result `r`, the facts recorded for it are
those of its result, and the operand is an object only if it is modified (clang
makes the conversion of an object to its value explicit). -/
def UnSite.Typed (d : Dialect) (s : UnSite) (r : TRes) : Prop :=
  typeUn d s.op s.sub.ety = some r ∧
  (r = .value → s.self.lvalue = false) ∧ (∀ q, r = .place q → s.self.ety = q) ∧
  (s.op.isIncDec = false → s.sub.lvalue = false)

theorem isFloat_iff (t : BTy) : t.isFloat = true ↔ t.floating := by
  cases t <;> simp [BTy.isFloat, BTy.floating]

theorem isBool_iff (t : BTy) : t.isBool = true ↔ t = .bool := by
  cases t <;> simp [BTy.isBool]

/-! ### Binary operators -/

/-- Operators that need integers. -/
def BOp.needsInt : BOp → Bool
  | .rem | .and | .xor | .or | .shl | .shr | .remAssign | .andAssign | .xorAssign | .orAssign
  | .shlAssign | .shrAssign => true
  | _ => false

/-- Operators that are considered. -/
def BOp.considered : BOp → Bool
  | .ptrMemD | .ptrMemI | .cmp | .comma => false
  | _ => true

theorem typeBin_eq (d : Dialect) (op : BOp) (a b : ETy) : typeBin d op a b =
    if op.considered = true ∧ (op.isAssign = true → a.modifiable) ∧
      (op.needsInt = true → ¬ (a.ty.floating ∨ b.ty.floating))
    then some (if op.isAssign then modified d a else .value) else none := by
  cases op <;> simp [typeBin, BOp.considered, BOp.isAssign, BOp.needsInt] <;>
    (try split) <;> (try simp_all) <;> (try split) <;> (try simp_all) <;>
    (try (intro h; simp_all))

/-- `op` can only be ill typed where `o` is not if it is one of those that are
checked. -/
def BOp.sameClass (o op : BOp) : Bool :=
  op.isAssign == o.isAssign && op.considered &&
    (!op.needsInt || o.needsInt || [BOp.rem, .andAssign, .orAssign, .remAssign, .shlAssign,
      .shrAssign, .xorAssign].contains op)

theorem candidates_class {s : BinSite} {op : BOp} (h : op ∈ s.candidates) :
    s.op.sameClass op = true := by
  unfold BinSite.candidates at h
  split at h
  · simp at h
  · rename_i fam hf
    have key : ∀ fam ∈ opFamilies, ∀ o ∈ fam, ∀ op ∈ fam, o.sameClass op = true := by decide
    have k1 : ∀ o ∈ [BOp.land, .lor], ∀ op ∈ [BOp.eq, .ne], o.sameClass op = true := by decide
    have k2 : ∀ o ∈ [BOp.eq, .ne], ∀ op ∈ [BOp.land, .lor], o.sameClass op = true := by decide
    simp only [List.mem_append] at h
    rcases h with (h | h) | h
    · exact key fam (List.mem_of_find?_eq_some hf) s.op (by simpa using List.find?_some hf) op h
    · split at h
      · exact k1 s.op (by simp_all) op h
      · simp at h
    · split at h
      · exact k2 s.op (by simp_all) op h
      · simp at h

/-- Every replacement is well typed if the original is, on operands of the same
types. -/
theorem replacement_typed {d : Dialect} {s : BinSite} {r : TRes} {a b : ETy} {opt : Bool} {op : BOp}
    (h : typeBin d s.op s.lhs.ety s.rhs.ety = some r) (ha : a.ty = s.lhs.ty) (hb : b.ty = s.rhs.ty)
    (hm : s.op.isAssign = true → s.lhs.ety.modifiable → a.modifiable)
    (ho : op ∈ s.replacements opt) :
    typeBin d op a b = some (if s.op.isAssign then modified d a else .value) := by
  obtain ⟨hc, hv⟩ := List.mem_filter.mp ho
  have hcl := candidates_class hc
  simp only [BOp.sameClass, Bool.and_eq_true, beq_iff_eq, Bool.or_eq_true, Bool.not_eq_true'] at hcl
  obtain ⟨⟨h1, h2⟩, h3⟩ := hcl
  have hv : s.isValid op = true := by
    cases h : s.isValid op <;> simp_all
  rw [typeBin_eq] at h ⊢
  split at h
  · rename_i hs
    rw [if_pos, h1]
    refine ⟨h2, fun h => hm (h1 ▸ h) (hs.2.1 (h1 ▸ h)), fun h => ?_⟩
    rw [ha, hb]
    rcases h3 with (h4 | h4) | h4
    · rw [h4] at h; cases h
    · exact hs.2.2 h4
    · rintro hf
      have : (s.lhs.ty.isFloat || s.rhs.ty.isFloat) = true := by
        rw [Bool.or_eq_true, isFloat_iff, isFloat_iff]; exact hf
      rw [BinSite.isValid, this] at hv
      simp at hv h4
      rcases h4 with h4 | h4 | h4 | h4 | h4 | h4 | h4 <;> simp [h4] at hv
  · cases h

/-- The original is well typed on operands of the same types. -/
theorem original_typed {d : Dialect} {op : BOp} {r : TRes} {a b a' b' : ETy}
    (h : typeBin d op a' b' = some r) (ha : a.ty = a'.ty) (hb : b.ty = b'.ty)
    (hm : op.isAssign = true → a'.modifiable → a.modifiable) :
    typeBin d op a b = some (if op.isAssign then modified d a else .value) := by
  rw [typeBin_eq] at h ⊢
  split at h
  · rename_i hs
    rw [if_pos]
    exact ⟨hs.1, fun h => hm h (hs.2.1 h), fun h => by rw [ha, hb]; exact hs.2.2 h⟩
  · cases h

/-- The first declared parameter of the function for a binary operator. -/
def BinSite.dparam1 (s : BinSite) (l : Lang) : DParam where
  arg := .arg1
  ty :=
    if s.op.isAssign then ⟨s.lhs.ty, s.lhs.volatile, false, if l.cpp then .ref else .ptr⟩
    else ⟨s.lhs.ty, false, false, .value⟩
  mode := s.mode1 l

/-- The second. -/
def BinSite.dparam2 (s : BinSite) (l : Lang) : DParam where
  arg := .arg2
  ty := ⟨s.rhs.ty, false, false, .value⟩
  mode := s.mode2 l

/-- The declared result. -/
def BinSite.dres (s : BinSite) (l : Lang) : DTy :=
  if s.op.isAssign && l.cpp then ⟨s.resTy, s.lhs.volatile, false, .ref⟩
  else ⟨s.resTy, false, false, .value⟩

theorem guards_returned {α} {k : Nat} {cs : List (RetE × α)} {line : Line} {e : RetE}
    (h : line ∈ guardsFrom k cs) (he : line.returned = some e) : ∃ a, (e, a) ∈ cs := by
  induction cs generalizing k with
  | nil => simp [guardsFrom] at h
  | cons c cs ih =>
    rcases List.mem_cons.mp h with rfl | h
    · obtain ⟨e', a⟩ := c
      simp only [Line.returned, Option.some.injEq] at he
      subst he
      exact ⟨a, List.mem_cons_self⟩
    · obtain ⟨a, ha⟩ := ih h
      exact ⟨a, List.mem_cons_of_mem _ ha⟩

/-- The lines of a function made of clauses. -/
theorem lines_returned {α} {track : Bool} {base n : Nat} {orig : RetE} {cs : List (RetE × α)}
    {line : Line} {e : RetE}
    (h : line ∈ (runClauses track base { lines := if track then [] else [.quick orig] } cs).lines
      ++ (if track then [.record n] else []) ++ [.ret orig])
    (he : line.returned = some e) : e = orig ∨ ∃ a, (e, a) ∈ cs := by
  rw [runClauses_eq] at h
  simp only [List.mem_append, List.mem_singleton] at h
  rcases h with (((h | h) | h) | h)
  · split at h
    · simp at h
    · simp only [List.mem_singleton] at h
      subst h
      simp only [Line.returned, Option.some.injEq] at he
      exact .inl he.symm
  · split at h
    · simp at h
    · exact .inr (guards_returned h he)
  · split at h
    · simp only [List.mem_singleton] at h
      subst h
      cases he
    · simp at h
  · subst h
    simp only [Line.returned, Option.some.injEq] at he
    exact .inl he.symm

theorem BinSite.use1 (s : BinSite) (l : Lang) : ∃ a, useOf [s.dparam1 l, s.dparam2 l] .arg1 = some a ∧
    a.ty = s.lhs.ty ∧
    (s.op.isAssign = true → a = ⟨s.lhs.ty, true, s.lhs.volatile, false⟩) := by
  cases ha : s.op.isAssign <;> cases hl : l.cpp <;> cases he : s.lhs.sideEffects <;>
    simp [useOf, BinSite.dparam1, BinSite.dparam2, BinSite.mode1, DParam.use, ha, hl, he]

theorem BinSite.use2 (s : BinSite) (l : Lang) : ∃ b, useOf [s.dparam1 l, s.dparam2 l] .arg2 = some b ∧
    b.ty = s.rhs.ty := by
  cases ha : s.op.isLogical <;> cases hl : l.cpp <;> cases he : s.rhs.sideEffects <;>
    simp [useOf, BinSite.dparam1, BinSite.dparam2, BinSite.mode2, DParam.use, ha, hl, he]

/-- The function generated for a binary operator is well typed if the operator is:
its alternatives are, the operands can be passed, and the call has the type of the
original. -/
theorem C24_binary (d : Dialect) (l : Lang) (o : Options) (base : Nat) (s : BinSite) (r : TRes)
    (hd : d.cpp = l.cpp) (h : s.Typed d r) :
    ∃ p1 p2 res, (s.genFn l o base).TypedAs d l [p1, p2] res ∧
      s.lhs.ety.passable p1 ∧ s.rhs.ety.passable p2 ∧ r.sameAs s.resTy res := by
  obtain ⟨ht, hres⟩ := h
  obtain ⟨hmod, hr⟩ : (s.op.isAssign = true → s.lhs.ety.modifiable) ∧
      r = if s.op.isAssign then modified d s.lhs.ety else .value := by
    rw [typeBin_eq] at ht
    split at ht
    · rename_i h
      exact ⟨h.2.1, (Option.some.inj ht).symm⟩
    · cases ht
  obtain ⟨a, ha, ha', ha''⟩ := s.use1 l
  obtain ⟨b, hb, hb'⟩ := s.use2 l
  have hm : s.op.isAssign = true → s.lhs.ety.modifiable → a.modifiable := by
    intro h _
    rw [ha'' h]
    exact ⟨rfl, rfl⟩
  have hret : ∀ op, typeBin d op a b = some (if s.op.isAssign then modified d a else .value) →
      ∃ r, typeRet d [s.dparam1 l, s.dparam2 l] (.bin op) = some r ∧ r.returnable (s.dres l) := by
    intro op hop
    refine ⟨_, by rw [typeRet, ha, hb]; exact hop, ?_⟩
    unfold BinSite.dres
    cases h1 : s.op.isAssign <;> cases h2 : l.cpp <;> simp [TRes.returnable, modified, hd, h2]
    rw [ha'' h1]
    have := hres s.lhs.ety (by rw [hr, h1]; simp [modified, hd, h2])
    exact ⟨rfl, this.symm, id, id⟩
  refine ⟨s.dparam1 l, s.dparam2 l, s.dres l, ⟨?_, ?_, ?_, ?_, ?_, ?_⟩, ?_, ?_, ?_⟩
  rotate_left 5
  · intro line hline e he
    rw [show (s.genFn l o base).lines = (s.genBody o base).lines
      ++ (if o.track then [.record (s.genBody o base).off] else []) ++ [.ret (.bin s.op)] from rfl,
      BinSite.genBody_eq] at hline
    rcases lines_returned hline he with rfl | ⟨act, hc⟩
    · exact hret _ (original_typed ht ha' hb' hm)
    · rcases List.mem_append.mp hc with hc | hc
      · obtain ⟨op, hop, heq⟩ := List.mem_map.mp hc
        obtain ⟨rfl, _⟩ := Prod.mk.inj heq
        exact hret _ (replacement_typed ht ha' hb' hm hop)
      · unfold BinSite.argClauses at hc
        split at hc
        · simp at hc
        split at hc
        · simp at hc
        · rename_i hna
          have hv : s.dres l = ⟨s.resTy, false, false, .value⟩ := by
            unfold BinSite.dres
            simp [hna]
          have : e = .arg .arg1 ∨ e = .arg .arg2 := by
            rcases List.mem_append.mp hc with hc | hc <;> split at hc <;> simp at hc
            · exact .inl hc.1
            · exact .inr hc.1
          rcases this with rfl | rfl
          · exact ⟨_, by rw [typeRet, ha]; rfl, by rw [hv]; trivial⟩
          · exact ⟨_, by rw [typeRet, hb]; rfl, by rw [hv]; trivial⟩
  · unfold BinSite.dparam1 ETy.passable BinSite.mode1
    cases h1 : s.op.isAssign <;> cases h2 : l.cpp <;> cases h3 : s.lhs.sideEffects <;>
      simp [ExprInfo.ety, ETy.binds] <;>
      exact hmod h1
  · unfold BinSite.dparam2 ETy.passable BinSite.mode2
    refine ⟨rfl, ?_⟩
    split <;> simp
  · rw [hr]
    unfold BinSite.dres
    cases h1 : s.op.isAssign <;> cases h2 : l.cpp <;> simp [TRes.sameAs, modified, hd, h2]
    have h3 := hres s.lhs.ety (by rw [hr, h1]; simp [modified, hd, h2])
    exact ⟨h3, rfl, (hmod h1).2⟩
  · unfold BinSite.genFn BinSite.dparam1 BinSite.dparam2 BinSite.lhsTyText DTy.text
    cases h1 : s.op.isAssign <;> cases h2 : l.cpp <;> cases h3 : s.lhs.volatile <;> simp
  · unfold BinSite.genFn BinSite.dres BinSite.resTyText DTy.text
    cases h1 : s.op.isAssign <;> cases h2 : l.cpp <;> cases h3 : s.lhs.volatile <;> simp
  · intro p hp
    rw [List.mem_cons, List.mem_singleton] at hp
    rcases hp with rfl | rfl
    · unfold DParam.exists BinSite.dparam1 BinSite.mode1
      rw [hd]
      cases h1 : s.op.isAssign <;> cases h2 : l.cpp <;> simp
    · unfold DParam.exists BinSite.dparam2 BinSite.mode2
      rw [hd]
      cases h2 : l.cpp <;> simp
  · rw [hd]
    unfold BinSite.dres
    cases h2 : l.cpp <;> simp
  · simp [BinSite.dparam1, BinSite.dparam2]

/-! ### Unary operators -/

theorem mem_un_replacements {s : UnSite} {opt : Bool} {op : UOp} (h : op ∈ s.replacements opt) :
    op ∈ unaryCandidates ∧ op ≠ s.op ∧ s.isValid op = true := by
  obtain ⟨h1, h2⟩ := List.mem_filter.mp h
  refine ⟨h1, ?_, ?_⟩
  · rintro rfl; simp at h2
  · cases h : s.isValid op <;> simp_all

/-- The declared parameter of the function for a unary operator or an
expression. -/
def ExprInfo.dparam (e : ExprInfo) (l : Lang) (m : ArgMode) : DParam where
  arg := .arg
  ty :=
    if e.lvalue then ⟨e.ty, e.volatile, false, if l.cpp then .ref else .ptr⟩
    else ⟨e.ty, false, false, .value⟩
  mode := m

theorem cpp_text {m : ArgMode} (l : Lang) (e : ExprInfo) (hc : l.cpp = true) (h : e.lvalue = true → e.const = false) :
    cppTypeModifiers e (e.ty.name l) = (e.dparam l m).ty.text l := by
  unfold cppTypeModifiers ExprInfo.dparam DTy.text
  cases h1 : e.lvalue <;> cases h2 : e.volatile <;> simp [hc]
  simp [h h1]

theorem c_text {m : ArgMode} (l : Lang) (e : ExprInfo) (hc : l.cpp = false) (h : e.lvalue = true → e.const = false) :
    cTypeModifiers e (e.ty.name l) = (e.dparam l m).ty.text l := by
  unfold cTypeModifiers ExprInfo.dparam DTy.text
  cases h1 : e.lvalue <;> cases h2 : e.volatile <;> simp [hc]
  simp [h h1]

theorem typeUn_some {d : Dialect} {op : UOp} {u : ETy} (ho : op ∈ unaryCandidates)
    (h1 : op.isIncDec = true → u.modifiable ∧ (d.cpp = true → u.ty ≠ .bool))
    (h2 : op = .not → ¬ u.ty.floating) :
    ∃ r, typeUn d op u = some r ∧ (op = .preInc ∨ op = .preDec → r = modified d u) := by
  have h3 : d.cpp17 = true → d.cpp = true := by cases d <;> simp [Dialect.cpp, Dialect.cpp17]
  cases op <;> simp [unaryCandidates] at ho <;> simp [UOp.isIncDec] at h1 <;> simp [typeUn] <;>
    simp_all

theorem typeUn_incDec {d : Dialect} {op : UOp} {u : ETy} {r : TRes} (h : typeUn d op u = some r)
    (ho : op.isIncDec = true) :
    u.modifiable ∧ r = if op.isPrefix then modified d u else .value := by
  cases op <;> simp [UOp.isIncDec] at ho <;> simp [typeUn] at h <;> simp [UOp.isPrefix, h]

theorem typeUn_value {d : Dialect} {op : UOp} {u : ETy} {r : TRes} (h : typeUn d op u = some r)
    (ho : op.isIncDec = false) :
    (op = .plus ∨ op ∈ unaryCandidates) ∧ r = .value ∧ (op = .not → ¬ u.ty.floating) := by
  cases op <;> simp [UOp.isIncDec] at ho <;> simp [typeUn] at h <;>
    simp [unaryCandidates, h]

/-- The type of the argument in the body. -/
theorem ExprInfo.use (e : ExprInfo) (l : Lang) (m : ArgMode)
    (hm : m = .deref ↔ (l.cpp = false ∧ e.lvalue = true)) :
    ∃ u, useOf [e.dparam l m] .arg = some u ∧ u.ty = e.ty ∧
      (e.lvalue = true → u = ⟨e.ty, true, e.volatile, false⟩) := by
  cases m <;> cases h1 : e.lvalue <;> cases h2 : l.cpp <;> simp [h1, h2] at hm <;>
    simp [useOf, ExprInfo.dparam, DParam.use, h1, h2]

theorem ExprInfo.dparam_exists {e : ExprInfo} {d : Dialect} {l : Lang} {m : ArgMode}
    (hd : d.cpp = l.cpp) (hm : m = .thunk → l.cpp = true) : (e.dparam l m).exists d := by
  unfold DParam.exists ExprInfo.dparam
  rw [hd]
  cases h : l.cpp
  · rw [h] at hm
    refine .inr ⟨?_, fun h => by cases hm h⟩
    cases e.lvalue <;> simp
  · exact .inl rfl

theorem ExprInfo.dparam_passable {e : ExprInfo} {l : Lang} {m : ArgMode}
    (hm : m = .deref ↔ (l.cpp = false ∧ e.lvalue = true)) (hc : e.lvalue = true → e.const = false) :
    e.ety.passable (e.dparam l m) := by
  unfold ETy.passable ExprInfo.dparam
  cases m <;> cases h1 : e.lvalue <;> cases h2 : l.cpp <;> simp [h1, h2] at hm <;>
    simp [ExprInfo.ety, ETy.binds, h1] <;> exact hc h1

/-- The function generated for a unary operator is well typed if the operator is,
except that a `bool` must not be incremented in C++ (before C++17 this is allowed;
see `C24_false`). -/
theorem C24_unary_partial (d : Dialect) (l : Lang) (o : Options) (base : Nat) (s : UnSite) (r : TRes)
    (hd : d.cpp = l.cpp) (h : s.Typed d r)
    (hb : d.cpp = true → s.op.isIncDec = true → s.sub.ty ≠ .bool) :
    ∃ p res, (s.genFn l o base).TypedAs d l [p] res ∧
      s.sub.ety.passable p ∧ r.sameAs s.self.ty res := by
  obtain ⟨ht, hval, hplace, hrv⟩ := h
  -- the operand is an object exactly if it is modified
  have hlv : s.sub.lvalue = s.op.isIncDec := by
    cases h : s.op.isIncDec
    · exact hrv h
    · exact (typeUn_incDec ht h).1.1
  have hconst : s.sub.lvalue = true → s.sub.const = false := fun h =>
    (typeUn_incDec ht (hlv ▸ h)).1.2
  have hm : s.mode l = .deref ↔ (l.cpp = false ∧ s.sub.lvalue = true) := by
    rw [hlv]
    unfold UnSite.mode
    cases l.cpp <;> cases s.self.sideEffects <;> cases s.op.isIncDec <;> simp
  obtain ⟨u, hu, hut, hu'⟩ := s.sub.use l (s.mode l) hm
  let res : DTy := if s.self.lvalue then ⟨s.self.ty, s.self.volatile, false, .ref⟩
    else ⟨s.self.ty, false, false, .value⟩
  -- what the operator denotes
  have hself : s.self.lvalue = true → d.cpp = true ∧ s.op.isIncDec = true ∧ s.op.isPrefix = true ∧
      s.self.ety = s.sub.ety := by
    intro h
    cases r with
    | value => rw [hval rfl] at h; cases h
    | place q =>
      have hi : s.op.isIncDec = true := by
        cases hi : s.op.isIncDec
        · cases (typeUn_value ht hi).2.1
        · rfl
      obtain ⟨_, h2⟩ := typeUn_incDec ht hi
      unfold modified at h2
      cases hp : s.op.isPrefix <;> cases hc : d.cpp <;> simp [hp, hc] at h2
      exact ⟨rfl, hi, rfl, (hplace q rfl).trans h2⟩
  have hret : ∀ op ∈ unaryCandidates, op = s.op ∨ s.isValid op = true →
      ∃ r, typeUn d op u = some r ∧ r.returnable res := by
    intro op hop hv
    obtain ⟨r', h1, h2⟩ := typeUn_some (d := d) (u := u) hop (by
        intro h
        have hl : s.sub.lvalue = true := by
          rcases hv with rfl | hv
          · rw [hlv]; exact h
          · cases hl : s.sub.lvalue
            · unfold UnSite.isValid at hv
              cases op <;> simp [UOp.isIncDec] at h <;> simp [hl] at hv
            · rfl
        rw [hu' hl]
        exact ⟨⟨rfl, rfl⟩, fun h => hb h (hlv ▸ hl)⟩) (by
        intro h
        rw [hut]
        rcases hv with rfl | hv
        · exact (typeUn_value ht (by rw [h]; rfl)).2.2 h
        · rw [← isFloat_iff]
          intro hf
          unfold UnSite.isValid at hv
          simp [h, hf] at hv)
    refine ⟨r', h1, ?_⟩
    cases hl : s.self.lvalue
    · simp [res, hl, TRes.returnable]
    · obtain ⟨h3, h4, h5, h6⟩ := hself hl
      have h7 : op = .preInc ∨ op = .preDec := by
        rcases hv with rfl | hv
        · revert h4 h5
          cases s.op <;> simp [UOp.isIncDec, UOp.isPrefix]
        · unfold UnSite.isValid at hv
          simp only [hl] at hv
          cases op <;> simp at hv ⊢
      have h8 : res = ⟨s.self.ty, s.self.volatile, false, .ref⟩ := by simp [res, hl]
      rw [h2 h7, h8, hu' (by rw [hlv]; exact h4)]
      simp only [ExprInfo.ety, ETy.mk.injEq] at h6
      exact ⟨_, by simp [modified, h3]; rfl, rfl, h6.1.symm, by simp [h6.2.2.1], id⟩
  refine ⟨s.sub.dparam l (s.mode l), res, ⟨?_, ?_, ?_, ?_, ?_, ?_⟩, ?_, ?_⟩
  · unfold UnSite.genFn UnSite.inputTy
    simp only [List.map_cons, List.map_nil]
    split
    · rename_i hc
      rw [cpp_text l s.sub hc hconst]; rfl
    · rename_i hc
      rw [c_text l s.sub (by simpa using hc) hconst]; rfl
  · change s.resTyText l = res.text l
    unfold UnSite.resTyText
    cases hl : s.self.lvalue
    · cases l.cpp <;> simp [res, hl, DTy.text, cppTypeModifiers]
    · obtain ⟨h3, h4, h5, h6⟩ := hself hl
      simp only [ExprInfo.ety, ETy.mk.injEq] at h6
      rw [hd] at h3
      have h7 : s.self.const = false := by rw [h6.2.2.2]; exact hconst (by rw [hlv]; exact h4)
      cases hv : s.self.volatile <;> simp [res, hl, DTy.text, cppTypeModifiers, h3, hv, h7]
  · intro p hp
    rw [List.mem_singleton] at hp
    rw [hp]
    refine ExprInfo.dparam_exists hd ?_
    unfold UnSite.mode
    cases l.cpp <;> simp
    split <;> simp
  · cases hl : s.self.lvalue
    · simp [res, hl]
    · exact .inl (hself hl).1
  · simp
  · intro line hline e he
    rw [show (s.genFn l o base).lines = (s.genBody o base).lines
      ++ (if o.track then [.record (s.genBody o base).off] else []) ++ [.ret (.un s.op)] from rfl,
      UnSite.genBody_eq] at hline
    rcases lines_returned hline he with rfl | ⟨act, hc⟩
    · by_cases hp : s.op = .plus
      · refine ⟨.value, by rw [typeRet, hu, hp]; rfl, ?_⟩
        cases hl : s.self.lvalue
        · simp [res, hl, TRes.returnable]
        · have := (hself hl).2.1
          rw [hp] at this
          cases this
      · obtain ⟨r', h1, h2⟩ := hret s.op (by
          cases hi : s.op.isIncDec
          · exact ((typeUn_value ht hi).1).resolve_left hp
          · revert hi
            cases s.op <;> simp [UOp.isIncDec, unaryCandidates]) (.inl rfl)
        exact ⟨r', by rw [typeRet, hu]; exact h1, h2⟩
    · rcases List.mem_append.mp hc with hc | hc
      · obtain ⟨op, hop, heq⟩ := List.mem_map.mp hc
        obtain ⟨rfl, _⟩ := Prod.mk.inj heq
        obtain ⟨h1, _, h3⟩ := mem_un_replacements hop
        obtain ⟨r', h1, h2⟩ := hret op h1 (.inr h3)
        exact ⟨r', by rw [typeRet, hu]; exact h1, h2⟩
      · split at hc
        · simp only [List.mem_singleton, Prod.mk.injEq] at hc
          rw [hc.1]
          refine ⟨_, by rw [typeRet, hu]; rfl, ?_⟩
          cases hl : s.self.lvalue
          · simp [res, hl, TRes.returnable]
          · obtain ⟨h3, h4, h5, h6⟩ := hself hl
            simp only [ExprInfo.ety, ETy.mk.injEq] at h6
            rw [hu' (by rw [hlv]; exact h4)]
            have h8 : res = ⟨s.self.ty, s.self.volatile, false, .ref⟩ := by simp [res, hl]
            rw [h8]
            exact ⟨_, rfl, rfl, h6.1.symm, by simp [h6.2.2.1], id⟩
        · simp at hc
  · exact ExprInfo.dparam_passable hm hconst
  · cases r with
    | value => simp [TRes.sameAs, res, hval rfl]
    | place q =>
      have hq := hplace q rfl
      have hl : s.self.lvalue = true := by
        cases hi : s.op.isIncDec
        · cases (typeUn_value ht hi).2.1
        · obtain ⟨h1, h2⟩ := typeUn_incDec ht hi
          unfold modified at h2
          cases hp : s.op.isPrefix <;> cases hc : d.cpp <;> simp [hp, hc] at h2
          rw [← h2, ← hq] at h1
          exact h1.1
      obtain ⟨h3, h4, h5, h6⟩ := hself hl
      have h7 : s.self.const = false := by
        have := congrArg ETy.const h6
        exact this.trans (hconst (by rw [hlv]; exact h4))
      rw [← hq]
      simp [TRes.sameAs, res, hl, ExprInfo.ety, h7]

/-! ### Expressions -/

/-- An expression may only be mutated as an object if it can be modified. -/
def ExprSite.Typed (s : ExprSite) : Prop :=
  s.self.lvalue = true → s.self.const = false ∧ s.self.ty ≠ .bool

theorem mem_if_singleton {α} {c : Bool} {x y : α} (h : x ∈ if c = true then [y] else []) :
    c = true ∧ x = y := by
  cases c <;> simp_all

/-- The alternatives of the function for an expression. -/
theorem expr_clause {s : ExprSite} {l : Lang} {opt : Bool} {e : RetE} {act : EAct}
    (h : (e, act) ∈ s.clauses l opt) :
    (∃ op, e = .ins op ∧ s.self.lvalue = true ∧ (op = .preInc ∨ op = .preDec)) ∨
    (∃ op, e = .ins op ∧ s.self.lvalue = false ∧
      (op = .lnot ∨ op = .minus ∨ (op = .not ∧ s.self.ty.isFloat = false))) ∨
    ∃ lit, e = .lit lit ∧ (l.cpp = true ∨ (lit ≠ .true_ ∧ lit ≠ .false_)) := by
  unfold ExprSite.clauses at h
  rcases List.mem_append.mp h with h | h
  · rcases List.mem_append.mp h with h | h
    · left
      split at h
      · simp at h
      · rename_i hl
        have hl : s.self.lvalue = true := by
          cases hl' : s.self.lvalue <;> simp_all
        simp only [List.mem_cons, Prod.mk.injEq, List.not_mem_nil, or_false] at h
        rcases h with h | h
        · exact ⟨_, h.1, hl, .inl rfl⟩
        · exact ⟨_, h.1, hl, .inr rfl⟩
    · right; left
      split at h
      · simp at h
      · rename_i hl
        have hl : s.self.lvalue = false := by simpa using hl
        rcases List.mem_append.mp h with h | h
        · rcases List.mem_append.mp h with h | h
          · exact ⟨_, (Prod.mk.inj (mem_if_singleton h).2).1, hl, .inl rfl⟩
          · obtain ⟨h1, h2⟩ := mem_if_singleton h
            refine ⟨_, (Prod.mk.inj h2).1, hl, .inr (.inr ⟨rfl, ?_⟩)⟩
            simp only [Bool.and_eq_true, BTy.isInteger] at h1
            simpa using h1.1.1
        · exact ⟨_, (Prod.mk.inj (mem_if_singleton h).2).1, hl, .inr (.inl rfl)⟩
  · right; right
    split at h
    · simp at h
    · simp only [List.mem_append] at h
      rcases h with ((((((h | h) | h) | h) | h) | h) | h) | h <;>
        refine ⟨_, (Prod.mk.inj (mem_if_singleton h).2).1, ?_⟩ <;> cases l.cpp <;> simp

/-- The function generated for an expression is well typed; it returns the value
of the expression. -/
theorem C24_expr (d : Dialect) (l : Lang) (o : Options) (base : Nat) (s : ExprSite)
    (hd : d.cpp = l.cpp) (h : s.Typed) :
    ∃ p, (s.genFn l o base).TypedAs d l [p] ⟨s.self.ty, false, false, .value⟩ ∧
      s.self.ety.passable p := by
  have hconst : s.self.lvalue = true → s.self.const = false := fun hl => (h hl).1
  have hm : s.mode l = .deref ↔ (l.cpp = false ∧ s.self.lvalue = true) := by
    unfold ExprSite.mode
    cases l.cpp <;> cases s.self.sideEffects <;> cases s.self.lvalue <;> simp
  obtain ⟨u, hu, hut, hu'⟩ := s.self.use l (s.mode l) hm
  refine ⟨s.self.dparam l (s.mode l), ⟨?_, ?_, ?_, ?_, ?_, ?_⟩, ?_⟩
  · unfold ExprSite.genFn ExprSite.inputTy
    simp only [List.map_cons, List.map_nil]
    split
    · rename_i hc
      rw [cpp_text l s.self hc hconst]; rfl
    · rename_i hc
      rw [c_text l s.self (by simpa using hc) hconst]; rfl
  · simp [ExprSite.genFn, DTy.text]
  · intro p hp
    rw [List.mem_singleton] at hp
    rw [hp]
    refine ExprInfo.dparam_exists hd ?_
    unfold ExprSite.mode
    cases l.cpp <;> simp
    split <;> simp
  · simp
  · simp
  · intro line hline e he
    suffices ∃ r, typeRet d [s.self.dparam l (s.mode l)] e = some r from
      this.imp fun r hr => ⟨hr, trivial⟩
    rw [show (s.genFn l o base).lines = (s.genBody l o base).lines
      ++ (if o.track then [.record (s.genBody l o base).off] else []) ++ [.ret (.arg .arg)] from rfl,
      ExprSite.genBody_eq] at hline
    rcases lines_returned hline he with rfl | ⟨act, hc⟩
    · exact ⟨_, by rw [typeRet, hu]; rfl⟩
    · rcases expr_clause hc with ⟨op, rfl, hl, ho⟩ | ⟨op, rfl, hl, ho⟩ | ⟨lit, rfl, hlit⟩
      · obtain ⟨r, hr, _⟩ := typeUn_some (d := d) (u := u) (op := op)
          (by rcases ho with rfl | rfl <;> simp [unaryCandidates])
          (by rw [hu' hl]; exact fun _ => ⟨⟨rfl, rfl⟩, fun _ => (h hl).2⟩)
          (by rcases ho with rfl | rfl <;> simp)
        exact ⟨r, by rw [typeRet, hu]; exact hr⟩
      · obtain ⟨r, hr, _⟩ := typeUn_some (d := d) (u := u) (op := op)
          (by rcases ho with rfl | rfl | ⟨rfl, _⟩ <;> simp [unaryCandidates])
          (by rcases ho with rfl | rfl | ⟨rfl, _⟩ <;> simp [UOp.isIncDec])
          (by
            rintro rfl
            rw [hut, ← isFloat_iff]
            simpa using ho)
        exact ⟨r, by rw [typeRet, hu]; exact hr⟩
      · refine ⟨.value, ?_⟩
        rw [typeRet]
        rw [← hd] at hlit
        cases lit <;> simp [typeLit] <;> simpa using hlit
  · exact ExprInfo.dparam_passable hm hconst

/-! ### Logical operators of C -/

theorem value_fn_typed (d : Dialect) (l : Lang) (t : BTy) (f : MutFn)
    (hp : f.params = [⟨.arg, t.name l, .value⟩]) (hr : f.resTy = t.name l)
    (hl : ∀ line ∈ f.lines, ∀ e, line.returned = some e →
      e = .arg .arg ∨ e = .un .lnot ∨ e = .lit .one ∨ e = .lit .zero) :
    f.TypedAs d l [⟨.arg, ⟨t, false, false, .value⟩, .value⟩] ⟨t, false, false, .value⟩ := by
  refine ⟨?_, ?_, ?_, ?_, ?_, ?_⟩
  · rw [hp]; simp [DTy.text]
  · rw [hr]; simp [DTy.text]
  · intro p hp
    rw [List.mem_singleton] at hp
    rw [hp]
    exact .inr ⟨by simp, by simp⟩
  · simp
  · simp
  · intro line h e he
    rcases hl line h e he with rfl | rfl | rfl | rfl
    · exact ⟨_, rfl, trivial⟩
    · exact ⟨_, rfl, trivial⟩
    · exact ⟨_, rfl, trivial⟩
    · exact ⟨_, rfl, trivial⟩

/-- The functions generated for `&&` and `||` in C are well typed: they take and
return the operands and the result by value. -/
theorem C24_c_logical (d : Dialect) (l : Lang) (o : Options) (first id : Nat) (s : BinSite) :
    ∀ f ∈ (s.applyCLogical l o first id).decls, ∃ t ∈ [s.lhs.ty, s.rhs.ty, s.resTy],
      f.TypedAs d l [⟨.arg, ⟨t, false, false, .value⟩, .value⟩] ⟨t, false, false, .value⟩ := by
  intro f hf
  have hf : f = cLogicalLhsFn s l o ∨ f = cLogicalRhsFn s l o ∨ f = cLogicalOuterFn s l o := by
    unfold BinSite.applyCLogical at hf
    cases ho : o.track <;> simp [ho] at hf
    · rcases hf with h | h | h
      · exact .inl h
      · exact .inr (.inl h)
      · exact .inr (.inr h)
    · exact .inr (.inr hf)
  rcases hf with rfl | rfl | rfl
  · refine ⟨s.lhs.ty, by simp, value_fn_typed d l _ _ rfl rfl ?_⟩
    intro line h e he
    simp only [cLogicalLhsFn, List.mem_cons, List.not_mem_nil, or_false] at h
    rcases h with rfl | rfl | rfl | rfl <;> simp [Line.returned] at he <;> subst he <;> simp
    exact Classical.em _
  · refine ⟨s.rhs.ty, by simp, value_fn_typed d l _ _ rfl rfl ?_⟩
    intro line h e he
    simp only [cLogicalRhsFn, List.mem_cons, List.not_mem_nil, or_false] at h
    rcases h with rfl | rfl | rfl | rfl <;> simp [Line.returned] at he <;> subst he <;> simp
    exact Classical.em _
  · refine ⟨s.resTy, by simp, value_fn_typed d l _ _ rfl rfl ?_⟩
    intro line h e he
    cases ho : o.track <;>
      simp only [cLogicalOuterFn, ho, if_true, List.mem_append, List.mem_cons,
        List.not_mem_nil, or_false, Bool.false_eq_true, if_false] at h <;>
      rcases h with rfl | rfl <;> simp [Line.returned] at he <;> subst he <;> simp

/-! ### The property -/

/-- C24 for binary operators, in the words of the property: every replacement is
well typed on the operands of the original. -/
theorem C24_operators (d : Dialect) (s : BinSite) (opt : Bool) (r : TRes)
    (h : typeBin d s.op s.lhs.ety s.rhs.ety = some r) :
    ∀ op ∈ s.replacements opt, typeBin d op s.lhs.ety s.rhs.ety = some r := by
  intro op hop
  have h1 := replacement_typed (a := s.lhs.ety) (b := s.rhs.ety) h rfl rfl (fun _ h => h) hop
  have h2 := original_typed (a := s.lhs.ety) (b := s.rhs.ety) h rfl rfl (fun _ h => h)
  rw [h1, ← h2, h]

/-- What the typing rules of C and C++ say about the operators of a program, and
what clang says about their operands: an object whose value is used is below an
explicit conversion. -/
def WellTypedAst (d : Dialect) (root : Node) : Prop :=
  ∀ p above s ks e, Place root p above (.stmt s ks) → s.kind = .expr e → ∀ t, e.ty = some t →
    (∀ op s' e' t', e.cls = .unary op → childExpr .operand ks = some (s', e') → e'.ty = some t' →
      ∃ r, typeUn d op ⟨t', e'.lvalue, e'.volatile, e'.const⟩ = some r ∧
        (r = .value → e.lvalue = false) ∧
        (∀ q, r = .place q → ⟨t, e.lvalue, e.volatile, e.const⟩ = q) ∧
        (op.isIncDec = false → e'.lvalue = false)) ∧
    (∀ op sl el tl sr er tr, e.cls = .binary op → op ≠ .comma →
      childExpr .lhs ks = some (sl, el) → el.ty = some tl →
      childExpr .rhs ks = some (sr, er) → er.ty = some tr →
      ∃ r, typeBin d op ⟨tl, el.lvalue, el.volatile, el.const⟩
          ⟨tr, er.lvalue, er.volatile, er.const⟩ = some r ∧
        ∀ q, r = .place q → t = q.ty)

/-- No `bool` is incremented or decremented in C++. -/
def NoBoolIncrement (d : Dialect) (root : Node) : Prop :=
  ∀ p above s ks e op s' e', Place root p above (.stmt s ks) → s.kind = .expr e →
    e.cls = .unary op → childExpr .operand ks = some (s', e') → d.cpp = true →
    op.isIncDec = true → e'.ty ≠ some .bool

/-- C24 for programs in which no `bool` is incremented in C++: every function
generated for a mutation of a well-typed program is well typed, whatever the
options.  Missing from C24: `++` on `bool` before C++17, for which it is false
(`C24_false`). -/
theorem C24_partial (d : Dialect) (l : Lang) (o : Options) (first id : Nat) (root : Node)
    (hd : d.cpp = l.cpp) (ht : WellTypedAst d root) (hb : NoBoolIncrement d root)
    (p : List Nat) (m : Mutation) (h : MutationAt l o.optimise root p m) :
    ∀ f ∈ (m.apply l o first id).decls, ∃ ps res, f.TypedAs d l ps res := by
  obtain ⟨c, above, s, ks, hf, hp, _, ho⟩ := ((visitTU_good l o.optimise root).1 _ h).fine
  rcases ho with ⟨hs, e, locs, hk, hm⟩ | ⟨hi, hm⟩
  · obtain ⟨sp, t, _, _, _, _, _, _, hty, _, _, hv⟩ := mem_visitExpr hm
    simp only [hv] at hm
    obtain ⟨t1, t2⟩ := ht _ _ s ks e hf.place hk t hty
    rcases List.mem_append.mp hm with hm | hm
    · rcases mem_handleOp hm with ⟨op, hc, hm⟩ | ⟨op, hc, hm⟩
      · obtain ⟨s', e', sp', t', ho, _, ht', hplus, _, _, h2⟩ := mem_handleUnary hm
        obtain ⟨r, h3, h4, h5, h6⟩ := t1 op s' e' t' hc ho ht'
        rw [h2]
        intro f hf'
        rw [Mutation.apply, UnSite.apply, List.mem_singleton] at hf'
        rw [hf']
        obtain ⟨p, res, h7, _⟩ := C24_unary_partial d l o id
          ⟨op, e'.infoAt t', e.infoAt t, e.opOff, sp, s.info, s'.info, s.node⟩ r hd ⟨h3, h4, h5, h6⟩
          (by
            intro h1 h8 h9
            refine hb _ _ s ks e op s' e' hf.place hk hc ho h1 h8 ?_
            rw [ht']
            exact congrArg some h9)
        exact ⟨_, _, h7⟩
      · obtain ⟨sl, el, sr, er, pl, pr, tl, tr, hl, hr, _, _, htl, htr, hcomma, _, _, h2⟩ :=
          mem_handleBinary hm
        obtain ⟨r, h3, h4⟩ := t2 op sl el tl sr er tr hc hcomma hl htl hr htr
        rw [h2]
        intro f hf'
        rw [Mutation.apply, BinSite.apply] at hf'
        split at hf'
        · obtain ⟨_, _, h5⟩ := C24_c_logical d l o first id _ f hf'
          exact ⟨_, _, h5⟩
        · rw [List.mem_singleton] at hf'
          rw [hf']
          obtain ⟨p1, p2, res, h7, _⟩ := C24_binary d l o id ⟨op, el.infoAt tl, er.infoAt tr, t,
            e.opOff, sp, pl, pr, s.info, sl.info, sr.info, s.node⟩ r hd ⟨h3, h4⟩
          exact ⟨_, _, h7⟩
    · obtain ⟨hlv, _, _, _, _, _, _, _, h2⟩ := mem_handleExpr hm
      rw [h2]
      intro f hf'
      rw [Mutation.apply, ExprSite.apply, List.mem_singleton] at hf'
      rw [hf']
      obtain ⟨p, h7, _⟩ := C24_expr d l o id _ hd (show (exprSite c.above s sp e t).Typed by
        intro h8
        simp only [exprSite, ExprFacts.infoAt] at h8 ⊢
        rw [h8] at hlv
        simp only [Bool.true_and, Bool.not_eq_false'] at hlv
        unfold canMutateLValue at hlv
        simp only [Bool.and_eq_true, Bool.not_eq_true', Bool.or_eq_false_iff] at hlv
        refine ⟨hlv.1.1.1, ?_⟩
        rintro rfl
        have := hlv.1.1.2
        rw [hty] at this
        cases this)
      exact ⟨_, _, h7⟩
  · obtain ⟨sp, _, h2⟩ := removal_span hm
    simp only at h2
    rw [h2]
    intro f hf'
    cases hf'

/-- C24 does not hold in full: before C++17, `++b` for a `bool` is well typed, and
the tool offers `--b`, which is not. -/
theorem C24_false (opt : Bool) : ∃ (s : UnSite) (r : TRes), s.Typed .cxx98 r ∧
    ∃ op ∈ s.replacements opt, typeUn .cxx98 op s.sub.ety = none := by
  refine ⟨Sample.un .preInc { Sample.intVar with ty := .bool } { Sample.intVar with ty := .bool },
    .place ⟨.bool, true, false, false⟩, ⟨rfl, nofun, ?_, nofun⟩, .preDec, ?_, rfl⟩
  · rintro q h
    cases h
    rfl
  · cases opt <;> decide

/-- A well-typed case with alternatives of every kind: `x += y` on a volatile
`int`. -/
example : (Sample.bin .addAssign { Sample.intVar with volatile := true } Sample.intVal).Typed .cxx17
      (.place ⟨.int, true, true, false⟩) ∧
    ((Sample.bin .addAssign { Sample.intVar with volatile := true } Sample.intVal).genFn
      Sample.cpp Sample.opts 3).lines.length = 12 := by
  refine ⟨⟨rfl, ?_⟩, by decide⟩
  rintro q h
  cases h
  rfl

/-- `x++` in C. -/
example : (Sample.un .postInc Sample.intVar Sample.intVal).Typed .c .value ∧
    (Sample.un .postInc Sample.intVar Sample.intVal).replacements true ≠ [] :=
  ⟨⟨rfl, fun _ => rfl, nofun, nofun⟩, by decide⟩

open SampleAst in
/-- The hypotheses of `C24_partial` hold for the sample, which has mutations. -/
example : WellTypedAst .cxx17 two ∧ NoBoolIncrement .cxx17 two ∧
    (visitTU Sample.cpp true two).cur.post ≠ [] := by
  refine ⟨?_, ?_, by decide +kernel⟩
  · intro p above s ks e hp
    refine (Everywhere.place (P := fun above n => ∀ s ks, n = .stmt s ks → ∀ e, s.kind = .expr e →
      ∀ t, e.ty = some t →
      (∀ op s' e' t', e.cls = .unary op → childExpr .operand ks = some (s', e') → e'.ty = some t' →
        ∃ r, typeUn .cxx17 op ⟨t', e'.lvalue, e'.volatile, e'.const⟩ = some r ∧
          (r = .value → e.lvalue = false) ∧
          (∀ q, r = .place q → ⟨t, e.lvalue, e.volatile, e.const⟩ = q) ∧
          (op.isIncDec = false → e'.lvalue = false)) ∧
      (∀ op sl el tl sr er tr, e.cls = .binary op → op ≠ .comma →
        childExpr .lhs ks = some (sl, el) → el.ty = some tl →
        childExpr .rhs ks = some (sr, er) → er.ty = some tr →
        ∃ r, typeBin .cxx17 op ⟨tl, el.lvalue, el.volatile, el.const⟩
            ⟨tr, er.lvalue, er.volatile, er.const⟩ = some r ∧
          ∀ q, r = .place q → t = q.ty)) ?_ hp).2 s ks rfl e
    simp [two, tu, func, block, node, SampleAst.read, facts, Everywhere, EverywhereL, SampleAst.bin,
      childExpr, Node.expr?, typeBin]
    constructor <;> (rintro _ _ _ _ _ _ _ rfl _ _ _ _ _ _ _; exact ⟨_, rfl, nofun⟩)
  · intro p above s ks e op s' e' hp
    refine (Everywhere.place (P := fun above n => ∀ s ks, n = .stmt s ks → ∀ e, s.kind = .expr e →
      e.cls ≠ .unary op) ?_ hp).2 s ks rfl e |> fun h => fun h1 h2 => absurd h2 (h h1)
    simp [two, tu, func, block, node, SampleAst.read, facts, Everywhere, EverywhereL, SampleAst.bin]

end Dredd
