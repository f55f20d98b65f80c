/-
C55, C56: what is mutated is what should be.
-/
import Verif.Proofs.Exact
import Verif.Props.C40

namespace Dredd

theorem valueIs_zero {e : ExprFacts} {t : BTy} : (e.infoAt t).isZero = true ↔ ValueIs e t 0 := by
  simp only [ExprInfo.isZero, ExprInfo.isInt, ExprInfo.isFlt, ExprFacts.infoAt, ValueIs, Bool.or_eq_true,
    Bool.and_eq_true, beq_iff_eq]
  refine or_congr Iff.rfl (and_congr_right fun _ => ?_)
  constructor
  · intro h; exact ⟨_, h, rfl⟩
  · rintro ⟨f, h1, h2⟩; cases f <;> simp [FConst.value?] at h2; exact h1

theorem valueIs_one {e : ExprFacts} {t : BTy} : (e.infoAt t).isOne = true ↔ ValueIs e t 1 := by
  simp only [ExprInfo.isOne, ExprInfo.isInt, ExprInfo.isFlt, ExprFacts.infoAt, ValueIs, Bool.or_eq_true,
    Bool.and_eq_true, beq_iff_eq]
  refine or_congr Iff.rfl (and_congr_right fun _ => ?_)
  constructor
  · intro h; exact ⟨_, h, rfl⟩
  · rintro ⟨f, h1, h2⟩; cases f <;> simp [FConst.value?] at h2; exact h1

theorem optCast_iff {opt : Bool} {above : List (Node × Nat)} {e : ExprFacts} :
    (opt && ((castParent (above.map (·.1.info)) e).map fun k => k.lvalue == e.lvalue).getD false &&
      parentCls (above.map (·.1.info)) != some .initList) = true ↔
    opt = true ∧ (∃ k, Converted above e k ∧ k.lvalue = e.lvalue) ∧ nearestCls above ≠ some .initList := by
  rw [parentCls_nearest, Bool.and_eq_true, Bool.and_eq_true, and_assoc]
  refine and_congr_right fun _ => and_congr ?_ (by simp)
  cases hc : castParent (above.map (·.1.info)) e with
  | none =>
    simp only [Option.map_none, Option.getD_none, Bool.false_eq_true, false_iff]
    rintro ⟨k, hk, _⟩
    rw [castParent_iff.mpr hk] at hc
    cases hc
  | some k =>
    simp only [Option.map_some, Option.getD_some, beq_iff_eq]
    constructor
    · intro h; exact ⟨k, castParent_iff.mp hc, h⟩
    · rintro ⟨k', hk, h⟩
      rw [castParent_iff.mpr hk] at hc
      cases hc
      exact h

theorem null_iff {above : List (Node × Nat)} {e : ExprFacts} :
    (e.nullConst && ((castParent (above.map (·.1.info)) e).map (·.anyPointer)).getD false) = true ↔
    e.nullConst = true ∧ ∃ k, Converted above e k ∧ k.anyPointer = true := by
  rw [Bool.and_eq_true]
  refine and_congr_right fun _ => ?_
  cases hc : castParent (above.map (·.1.info)) e with
  | none =>
    simp only [Option.map_none, Option.getD_none, Bool.false_eq_true, false_iff]
    rintro ⟨k, hk, _⟩
    rw [castParent_iff.mpr hk] at hc
    cases hc
  | some k =>
    simp only [Option.map_some, Option.getD_some]
    constructor
    · intro h; exact ⟨k, castParent_iff.mp hc, h⟩
    · rintro ⟨k', hk, h⟩
      rw [castParent_iff.mpr hk] at hc
      cases hc
      exact h

theorem handleExpr_iff {opt : Bool} {above : List (Node × Nat)} {s : AStmt} {sp : Span} {e : ExprFacts}
    {t : BTy} {ks : List Node} {m : Mutation} :
    m ∈ handleExpr opt (above.map (·.1.info)) s sp e t ks ↔
      Replaceable opt above e ks ∧ m = .expr (exprSite (above.map (·.1.info)) s sp e t) := by
  constructor
  · intro h
    obtain ⟨h1, h2, h3, h4, h5, h6, h7, _, h8⟩ := mem_handleExpr h
    refine ⟨⟨?_, h2, ?_, ?_, ?_, ?_, ?_⟩, h8⟩
    · intro hl
      rw [hl, Bool.true_and, Bool.not_eq_false'] at h1
      exact canMutateLValue_iff.mp h1
    · rw [← null_iff, h3]; simp
    · rw [← enumToConstructor_iff, h4]; simp
    · rw [← bitFieldTemporary_iff, h5]; simp
    · intro ho
      have := optCast_iff (opt := opt) (above := above) (e := e)
      rw [h6] at this
      simp only [Bool.false_eq_true, false_iff] at this
      exact fun h => this ⟨ho, h⟩
    · intro ho
      rw [← parentIsBlock_iff]
      rw [ho, Bool.true_and] at h7
      rw [h7]; simp
  · rintro ⟨h, rfl⟩
    unfold handleExpr
    have h1 : ¬ (e.lvalue && !canMutateLValue (above.map (·.1.info)) e) = true := by
      rw [Bool.and_eq_true]
      rintro ⟨hl, hc⟩
      rw [canMutateLValue_iff.mpr (h.lvalue hl)] at hc
      cases hc
    have h7 : ¬ (opt && parentIsBlock (above.map (·.1.info))) = true := by
      rw [Bool.and_eq_true, parentIsBlock_iff]
      exact fun ⟨h1, h2⟩ => h.block h1 h2
    rw [if_neg h1, if_neg h.initList, if_neg (fun h' => h.null (null_iff.mp h')),
      if_neg (fun h' => h.enum (enumToConstructor_iff.mp h')),
      if_neg (fun h' => h.bitField (bitFieldTemporary_iff.mp h')),
      if_neg (fun h' => h.cast (optCast_iff.mp h').1 (optCast_iff.mp h').2), if_neg h7]
    exact List.mem_singleton.mpr rfl

theorem nearestCls_stmt {s : AStmt} {ks : List Node} {i : Nat} {above : List (Node × Nat)} {e : ExprFacts}
    (h : s.kind = .expr e) : nearestCls ((.stmt s ks, i) :: above) = some e.cls := by
  obtain ⟨⟩ := s
  simp only at h
  subst h
  rfl

theorem initListCast_iff {above : List (Node × Nat)} {e : ExprFacts} {t : BTy} :
    initListCast (above.map (·.1.info)) e = some t ↔ CastInList above e t := by
  have hel : ∀ (above : List (Node × Nat)) (e : ExprFacts),
      (∀ s ks i r e', above = (.stmt s ks, i) :: r → s.kind = .expr e' → e'.cls ≠ .paren) →
      ((if parentCls (above.map (·.1.info)) = some .initList then e.initCast.bind (·.ty) else none) = some t ↔
        CastInList above e t) := by
    intro above e hp
    rw [parentCls_nearest]
    constructor
    · intro h
      split at h
      · rename_i hc
        obtain ⟨k, h1, h2⟩ := Option.bind_eq_some_iff.mp h
        exact .element hc h1 h2
      · cases h
    · intro h
      cases h with
      | element h1 h2 h3 => rw [if_pos h1, h2]; exact h3
      | paren h1 h2 _ => exact absurd h2 (hp _ _ _ _ _ rfl h1)
  induction above generalizing e with
  | nil => exact hel [] e (by intro _ _ _ _ _ h; cases h)
  | cons x r ih =>
    obtain ⟨n, i⟩ := x
    cases n with
    | decl d ks => exact hel ((.decl d ks, i) :: r) e (by intro _ _ _ _ _ h; cases h)
    | other k ks => exact hel ((.other k ks, i) :: r) e (by intro _ _ _ _ _ h; cases h)
    | stmt s ks =>
      by_cases hp : ∃ e', s.kind = .expr e' ∧ e'.cls = .paren
      · obtain ⟨e', h1, h2⟩ := hp
        have hd : initListCast (((Node.stmt s ks, i) :: r).map (·.1.info)) e =
            initListCast (r.map (·.1.info)) e' := by
          have hdp : deparenthesise (((Node.stmt s ks, i) :: r).map (·.1.info)) e =
              deparenthesise (r.map (·.1.info)) e' := by
            show deparenthesise (.stmt s :: r.map (·.1.info)) e = _
            rw [deparenthesise]
            simp only [h1, h2, if_true]
          unfold initListCast
          rw [hdp]
        rw [hd]
        refine (ih (e := e')).trans ?_
        constructor
        · exact .paren h1 h2
        · intro h
          cases h with
          | element h3 _ _ => rw [nearestCls_stmt h1, h2] at h3; cases h3
          | paren h3 _ h5 => rw [h1] at h3; cases h3; exact h5
      · have hd : deparenthesise (((Node.stmt s ks, i) :: r).map (·.1.info)) e =
            (((Node.stmt s ks, i) :: r).map (·.1.info), e) := by
          simp only [List.map_cons, Node.info, deparenthesise]
          split
          · rename_i e' h1
            rw [if_neg (fun h2 => hp ⟨e', h1, h2⟩)]
          · rfl
        unfold initListCast
        rw [hd]
        exact hel _ e (by
          rintro _ _ _ _ e' he h1 h2
          cases he
          exact hp ⟨e', h1, h2⟩)

theorem exprSite_is {above : List (Node × Nat)} {s : AStmt} {sp : Span} {e : ExprFacts} {t : BTy} :
    (Mutation.expr (exprSite (above.map (·.1.info)) s sp e t)).IsExpr above s e sp t := by
  refine ⟨_, rfl, rfl, rfl, rfl, rfl, ?_, isLogicalArg_iff, canMutateLValue_iff, rfl,
    fun _ => initListCast_iff⟩
  intro op
  show (match e.cls with
    | .binary op => some op
    | _ => none) = some op ↔ _
  constructor
  · intro h
    split at h
    · cases h; assumption
    · cases h
  · intro h; rw [h]

theorem isIncDec_iff {op : UOp} :
    op.isIncDec = true ↔ op = .preInc ∨ op = .preDec ∨ op = .postInc ∨ op = .postDec := by
  cases op <;> simp [UOp.isIncDec]

theorem isAssign_iff {op : BOp} :
    op.isAssign = true ↔ op ∈ [BOp.assign, .mulAssign, .divAssign, .remAssign, .addAssign, .subAssign,
      .shlAssign, .shrAssign, .andAssign, .xorAssign, .orAssign] := by
  cases op <;> simp [BOp.isAssign]

theorem constUnary_iff {x : UnSite} {e' : ExprFacts} {t' : BTy} (hx : x.sub = e'.infoAt t') :
    x.constUnary = true ↔ (x.op = .minus ∧ ValueIs e' t' 1) ∨
      (x.op = .not ∧ (ValueIs e' t' 0 ∨ ValueIs e' t' 1)) := by
  simp only [UnSite.constUnary, hx, Bool.or_eq_true, Bool.and_eq_true, beq_iff_eq, valueIs_one,
    valueIs_zero]

theorem handleOp_iff {opt : Bool} {s : AStmt} {sp : Span} {e : ExprFacts} {t : BTy} {ks : List Node}
    {m : Mutation} :
    m ∈ handleOp opt s sp e t ks ↔
      (∃ op s' e' t', HasChild ks .operand s' e' ∧ UnaryOk opt e ks op e' t' ∧
        m = .un ⟨op, e'.infoAt t', e.infoAt t, e.opOff, sp, s.info, s'.info, s.node⟩) ∨
      (∃ op sl el tl sr er tr pl pr, BinaryOk opt e ks op sl el tl sr er tr ∧
        sl.range = some pl ∧ sr.range = some pr ∧
        m = .bin ⟨op, el.infoAt tl, er.infoAt tr, t, e.opOff, sp, pl, pr, s.info, sl.info, sr.info,
          s.node⟩) := by
  constructor
  · intro h
    rcases mem_handleOp h with ⟨op, hc, h⟩ | ⟨op, hc, h⟩
    · obtain ⟨s', e', sp', t', h1, h2, h3, h4, h5, h6, h7⟩ := mem_handleUnary h
      refine .inl ⟨op, s', e', t', childExpr_iff.mp h1, ⟨hc, ⟨s', sp', childExpr_iff.mp h1, h2⟩, h3, h4, ?_, ?_⟩, h7⟩
      · rw [← isIncDec_iff]
        intro hid
        rw [hid, Bool.true_and] at h5
        exact h5
      · intro ho
        have h8 : ¬ UnSite.constUnary ⟨op, e'.infoAt t', e.infoAt t, e.opOff, sp, s.info, s'.info,
            s.node⟩ = true := by
          intro hcu
          unfold handleUnary at h
          rw [h1] at h
          simp only [h2, h3] at h
          rw [if_neg (by simpa using h4), if_neg (by simpa using h5), UnSite.handle, hcu, ho] at h
          simp at h
        rw [constUnary_iff rfl] at h8
        exact ⟨fun h => h8 (.inl h), fun h => h8 (.inr h)⟩
    · obtain ⟨sl, el, sr, er, pl, pr, tl, tr, h1, h2, h3, h4, h5, h6, h7, h8, h9, h10⟩ :=
        mem_handleBinary h
      refine .inr ⟨op, sl, el, tl, sr, er, tr, pl, pr, ⟨hc, childExpr_iff.mp h1, childExpr_iff.mp h2,
        by simp [h3], by simp [h4], h5, h6, h7, ?_, ?_⟩, h3, h4, h10⟩
      · rw [← isAssign_iff]
        intro hid
        rw [hid, Bool.true_and] at h8
        exact h8
      · intro ho
        intro hz
        unfold handleBinary at h
        rw [h1, h2] at h
        simp only [h3, h4, h5, h6] at h
        rw [if_neg (by simpa using h8), if_neg (by simpa using h7), BinSite.handle, BinSite.zeroOpOne,
          valueIs_zero.mpr hz.1, valueIs_one.mpr hz.2, ho] at h
        simp at h
  · rintro (⟨op, s', e', t', hch, h, rfl⟩ | ⟨op, sl, el, tl, sr, er, tr, pl, pr, h, hpl, hpr, rfl⟩)
    · obtain ⟨s'', sp', h1, h2⟩ := h.operand
      have he : s' = s'' := by
        have a := childExpr_iff.mpr hch
        have b := childExpr_iff.mpr h1
        rw [a] at b
        cases b
        rfl
      subst he
      simp only [handleOp, h.cls, handleUnary, childExpr_iff.mpr hch, h2, h.ty]
      rw [if_neg (by simpa using h.plus), if_neg, UnSite.handle, if_neg]
      · simp
      · rw [Bool.and_eq_true, constUnary_iff rfl]
        rintro ⟨ho, h' | h'⟩
        · exact (h.const ho).1 h'
        · exact (h.const ho).2 h'
      · rw [Bool.and_eq_true, isIncDec_iff]
        rintro ⟨h', h''⟩
        rw [h.bitField h'] at h''
        cases h''
    · simp only [handleOp, h.cls, handleBinary, childExpr_iff.mpr h.lhs, childExpr_iff.mpr h.rhs, hpl, hpr,
        h.lty, h.rty]
      rw [if_neg, if_neg (by simpa using h.comma), BinSite.handle, if_neg]
      · simp
      · rw [Bool.and_eq_true, BinSite.zeroOpOne, Bool.and_eq_true, valueIs_zero, valueIs_one]
        rintro ⟨ho, h'⟩
        exact h.const ho h'
      · rw [Bool.and_eq_true, isAssign_iff]
        rintro ⟨h', h''⟩
        rw [h.bitField h'] at h''
        cases h''

theorem removal_iff {opt : Bool} {s : AStmt} {m : Mutation} (h1 : s.kind ≠ .case_)
    (h2 : s.kind ≠ .default_) :
    m ∈ removal opt s ↔ ∃ sp, s.range = some sp ∧ s.kind ∉ [.null, .declStmt, .label, .case_, .default_] ∧
      (opt = true → s.kind ≠ .compound) ∧ m = .stmt (stmtSite s sp) := by
  unfold removal
  cases hr : s.range with
  | none => simp
  | some sp =>
    cases hk : s.kind
    case case_ => exact absurd hk h1
    case default_ => exact absurd hk h2
    case compound => cases opt <;> simp
    all_goals simp

/-- What an expression that may be mutated yields. -/
theorem visitExpr_ok {l : Lang} {opt : Bool} {c : Ctx} {above : List (Node × Nat)} {s : AStmt}
    {e : ExprFacts} {ks : List Node} {sp : Span} {t : BTy} {locs : List Nat}
    (h : ExprOk l opt above s e ks sp t) (ha : c.above = above.map (·.1.info))
    (he : c.encl = enclOf above) (hl : e.beginLoc ∉ locs) :
    visitExpr opt c locs s e ks =
      handleOp opt s sp e t ks ++ handleExpr opt (above.map (·.1.info)) s sp e t ks := by
  unfold visitExpr
  rw [if_neg, if_neg, if_neg, if_neg]
  · simp only [h.range, h.ty]
    rw [if_neg (by simp [h.consistent]), if_neg, if_neg, ha]
    · rw [mayDependOnTemp_iff]; exact h.temporary
    · rw [ha, mayAffectAdl_iff]; exact h.lookup
  · simpa using hl
  · rw [he, inFunction_encl h.inFunction]; simp
  · rw [Bool.and_eq_true, beq_iff_eq]; exact fun ⟨h1, h2⟩ => (h.wrapper h1).2 h2
  · rw [Bool.and_eq_true, beq_iff_eq]; exact fun ⟨h1, h2⟩ => (h.wrapper h1).1 h2

/-- All mutations of an expression that may be mutated are there. -/
theorem exprOk_mutated {l : Lang} {opt : Bool} {root : Node} (hw : WellFormed root) {p above s ks e sp t}
    (hp : Place root p above (.stmt s ks)) (h : ExprOk l opt above s e ks sp t)
    (hd : ¬ DeclaredAt root e.beginLoc) :
    ∀ m, m ∈ handleOp opt s sp e t ks ++ handleExpr opt (above.map (·.1.info)) s sp e t ks →
      MutationAt l opt root p m := by
  intro m hm
  obtain ⟨c, h1, h2, h3, h4, _⟩ := hp.path hw h.considered.outside h.considered.pairs h.considered.useful
  have hskip : skipStmt c.above s = false := by
    rw [h3]
    refine skip_false h.self ?_
    intro x r he
    have := h.considered.pairs
    rw [he] at this
    exact this.1
  obtain ⟨locs, h5, h6⟩ := h1.expr hskip h.kind (by
    intro hi
    refine pointless_false (ks := ks) fun ho hpt => ?_
    rw [h3] at hi
    have hi := isItem_iff.mp hi
    have hu := h.considered.useful ho
    cases above with
    | nil => obtain ⟨labels, _, _, _, _, h, _⟩ := hi; simp at h
    | cons x r => exact hu.1 ⟨hi, hpt⟩)
  rw [← visitExpr_ok h h3 h4 (locs := locs) (fun hx => hd (locsOf_place root _ (h5 _ hx)))] at hm
  have := h6 m hm
  rw [h2] at this
  exact this

/-- C55 for expressions: every expression of supported type in the main file that
is in code to be considered and may be replaced as a whole is. -/
theorem C55_expression (l : Lang) (opt : Bool) (root : Node) (hw : WellFormed root) (p : List Nat)
    (above : List (Node × Nat)) (s : AStmt) (ks : List Node) (e : ExprFacts) (sp : Span) (t : BTy)
    (hp : Place root p above (.stmt s ks)) (h : ExprOk l opt above s e ks sp t)
    (hr : Replaceable opt above e ks) (hd : ¬ DeclaredAt root e.beginLoc) :
    ∃ m, MutationAt l opt root p m ∧ m.IsExpr above s e sp t :=
  ⟨_, exprOk_mutated hw hp h hd _ (List.mem_append_right _ (handleExpr_iff.mpr ⟨hr, rfl⟩)), exprSite_is⟩

/-- C55 for unary operators. -/
theorem C55_unary (l : Lang) (opt : Bool) (root : Node) (hw : WellFormed root) (p : List Nat)
    (above : List (Node × Nat)) (s : AStmt) (ks : List Node) (e : ExprFacts) (sp : Span) (t : BTy)
    (op : UOp) (e' : ExprFacts) (t' : BTy)
    (hp : Place root p above (.stmt s ks)) (h : ExprOk l opt above s e ks sp t)
    (hr : UnaryOk opt e ks op e' t') (hd : ¬ DeclaredAt root e.beginLoc) :
    ∃ m, MutationAt l opt root p m ∧ m.IsUnary s ks e sp t op e' t' := by
  obtain ⟨s', sp', h1, h2⟩ := hr.operand
  exact ⟨_, exprOk_mutated hw hp h hd _ (List.mem_append_left _ (handleOp_iff.mpr
    (.inl ⟨op, s', e', t', h1, hr, rfl⟩))), _, rfl, rfl, rfl, rfl, rfl, rfl, rfl, rfl, s', h1, rfl⟩

/-- C55 for binary operators. -/
theorem C55_binary (l : Lang) (opt : Bool) (root : Node) (hw : WellFormed root) (p : List Nat)
    (above : List (Node × Nat)) (s : AStmt) (ks : List Node) (e : ExprFacts) (sp : Span) (t : BTy)
    (op : BOp) (sl : AStmt) (el : ExprFacts) (tl : BTy) (sr : AStmt) (er : ExprFacts) (tr : BTy)
    (hp : Place root p above (.stmt s ks)) (h : ExprOk l opt above s e ks sp t)
    (hr : BinaryOk opt e ks op sl el tl sr er tr) (hd : ¬ DeclaredAt root e.beginLoc) :
    ∃ m, MutationAt l opt root p m ∧ m.IsBinary s e sp t op sl el tl sr er tr := by
  obtain ⟨pl, hpl⟩ := Option.isSome_iff_exists.mp hr.lrange
  obtain ⟨pr, hpr⟩ := Option.isSome_iff_exists.mp hr.rrange
  exact ⟨_, exprOk_mutated hw hp h hd _ (List.mem_append_left _ (handleOp_iff.mpr
    (.inr ⟨op, sl, el, tl, sr, er, tr, pl, pr, hr, hpl, hpr, rfl⟩))), _, rfl, rfl, rfl, rfl, rfl, rfl, rfl,
    hpl.symm, hpr.symm, rfl, rfl, rfl, rfl⟩

/-- C55 for statements: every statement that may be removed is. -/
theorem C55_removal (l : Lang) (opt : Bool) (root : Node) (hw : WellFormed root) (p : List Nat)
    (above : List (Node × Nat)) (s : AStmt) (ks : List Node) (sp : Span)
    (hp : Place root p above (.stmt s ks)) (h : Considered l opt (.stmt s ks) above)
    (hr : Removable opt above s sp) : ∃ m, MutationAt l opt root p m ∧ m.IsRemovalOf s sp := by
  obtain ⟨c, h1, h2, h3, _, _⟩ := hp.path hw h.outside h.pairs h.useful
  have hk := hr.kind
  simp only [List.mem_cons, List.not_mem_nil, or_false, not_or] at hk
  have hm := h1.removal (by rw [h3]; exact isItem_iff.mpr hr.item) hk.2.2.2.1 hk.2.2.2.2 (by
    refine pointless_false (ks := ks) fun ho hpt => ?_
    have hu := h.useful ho
    have hi := hr.item
    cases above with
    | nil => obtain ⟨labels, _, _, _, _, h, _⟩ := hi; simp at h
    | cons x r => exact hu.1 ⟨hi, hpt⟩) _
    ((removal_iff hk.2.2.2.1 hk.2.2.2.2).mpr ⟨sp, hr.range, hr.kind, hr.block, rfl⟩)
  rw [h2] at hm
  exact ⟨_, hm, _, rfl, rfl, rfl, rfl, rfl, rfl, rfl, rfl⟩

/-- C56: whatever is mutated is an expression, operator or statement that may
be. -/
theorem C56 (l : Lang) (opt : Bool) (root : Node) (p : List Nat) (m : Mutation)
    (h : MutationAt l opt root p m) :
    ∃ above s ks, Place root p above (.stmt s ks) ∧
      ((∃ e sp t, ExprOk l opt above s e ks sp t ∧
        ((Replaceable opt above e ks ∧ m.IsExpr above s e sp t) ∨
         (∃ op e' t', UnaryOk opt e ks op e' t' ∧ m.IsUnary s ks e sp t op e' t') ∨
         (∃ op sl el tl sr er tr, BinaryOk opt e ks op sl el tl sr er tr ∧
           m.IsBinary s e sp t op sl el tl sr er tr))) ∨
       (∃ sp, Considered l opt (.stmt s ks) above ∧ Removable opt above s sp ∧ m.IsRemovalOf s sp)) := by
  obtain ⟨c, above, s, ks, hf, hp, hc, ho⟩ := (visitTU_from l opt root _ h).fine
  simp only at hp ho
  subst hp
  refine ⟨above, s, ks, hf.place, ?_⟩
  rcases ho with ⟨hs, e, locs, hk, hm⟩ | ⟨hi, h1, h2, hm⟩
  · obtain ⟨sp, t, h1, h2, h3, h4, h5, h6, h7, h8, h9, hv⟩ := mem_visitExpr hm
    have hok : ExprOk l opt above s e ks sp t := by
      refine ⟨hc, skip_not_compileTime hs (by simp [hk]), hk, hf.encl h3, h5, h7, h6, ?_, ?_, ?_⟩
      · rw [← mayAffectAdl_iff, ← hf.infos, h8]; simp
      · rw [← mayDependOnTemp_iff, h9]; simp
      · intro hopt
        rw [hopt, Bool.true_and] at h1 h2
        exact ⟨by simpa using h1, by simpa using h2⟩
    refine .inl ⟨e, sp, t, hok, ?_⟩
    rw [hv, hf.infos] at hm
    rcases List.mem_append.mp hm with hm | hm
    · rcases handleOp_iff.mp hm with ⟨op, s', e', t', hch, hop, rfl⟩ |
        ⟨op, sl, el, tl, sr, er, tr, pl, pr, hop, hpl, hpr, rfl⟩
      · exact .inr (.inl ⟨op, e', t', hop, _, rfl, rfl, rfl, rfl, rfl, rfl, rfl, rfl, s', hch, rfl⟩)
      · exact .inr (.inr ⟨op, sl, el, tl, sr, er, tr, hop, _, rfl, rfl, rfl, rfl, rfl, rfl, rfl,
          hpl.symm, hpr.symm, rfl, rfl, rfl, rfl⟩)
    · obtain ⟨hrep, rfl⟩ := handleExpr_iff.mp hm
      exact .inl ⟨hrep, exprSite_is⟩
  · obtain ⟨sp, h3, h4, h5, rfl⟩ := (removal_iff h1 h2).mp hm
    exact .inr ⟨sp, hc, ⟨hi, h3, h4, h5⟩, _, rfl, rfl, rfl, rfl, rfl, rfl, rfl, rfl⟩

namespace SampleAst

/-- The tree `two` is well formed. -/
theorem two_wellFormed : WellFormed two := by
  intro p above s ks hp
  refine (Everywhere.place (P := fun _ n => ∀ s ks, n = .stmt s ks →
    (s.kind = .compound → ∀ k ∈ ks, ∃ s' ks', k = .stmt s' ks') ∧
    (s.kind = .case_ → ∀ k ∈ ks, ∃ s' ks', k = .stmt s' ks') ∧
    (s.kind = .default_ → ∃ s' ks', ks = [.stmt s' ks'])) ?_ hp).2 s ks rfl
  simp [two, tu, func, block, node, bin, SampleAst.read, facts, Everywhere, EverywhereL]

/-- The ancestors of `a + b` in the second function of `two`. -/
def twoAbove : List (Node × Nat) :=
  let sum := bin .add .plain 49 54 (read .lhs 49 50) (read .rhs 53 54)
  let ret := node .other .plain 42 54 [sum]
  let body := block 41 57 [ret]
  [(ret, 0), (body, 0), (func false 34 57 [body], 0), (two, 1)]

/-- The facts about `a + b`. -/
def twoFacts : ExprFacts := { facts (.binary .add) (some .int) false 49 with opOff := some 51 }

/-- The operand `a`. -/
def twoLhs : Node := read .lhs 49 50
/-- The operand `b`. -/
def twoRhs : Node := read .rhs 53 54

/-- The statement `a + b`. -/
def twoStmt : AStmt := ⟨.expr twoFacts, .plain, some ⟨49, 54⟩, Sample.info, [], 54, false, false, false⟩

theorem two_place : Place two [1, 0, 0, 0] twoAbove (.stmt twoStmt [twoLhs, twoRhs]) :=
  ancestors_place _ _ _ _ rfl

theorem two_considered (opt : Bool) :
    Considered Sample.cpp opt (.stmt twoStmt [twoLhs, twoRhs]) twoAbove := by
  refine ⟨?_, ?_, ?_⟩
  · simp [twoAbove, CompileTime, block, node, func, two, tu, Decl.isTU]
  · simp [twoAbove, NoPair, CompileTimeChild, Node.cls?, block, node, func, two, tu, twoStmt, bin, facts]
  · intro _
    simp [twoAbove, NoPointless, Pointless, twoStmt, twoFacts, facts, node, block, func, two, tu]

theorem two_exprOk (opt : Bool) :
    ExprOk Sample.cpp opt twoAbove twoStmt twoFacts [twoLhs, twoRhs] ⟨49, 54⟩ .int := by
  refine ⟨two_considered opt, ?_, rfl, ?_, rfl, rfl, rfl, ?_, ?_, ?_⟩
  · simp [CompileTime, twoStmt, twoFacts, facts]
  · refine ⟨[_, _], _, _, _, _, rfl, ⟨_, _, rfl⟩, ?_⟩
    simp [node, block]
  · rintro (⟨⟨_, h⟩, _⟩ | ⟨⟨_, _, h⟩, _⟩) <;> simp [twoFacts, facts] at h
  · intro h
    rw [← mayDependOnTemp_iff] at h
    simp [mayDependOnTemp, twoStmt, twoFacts, facts] at h
  · intro _
    simp [twoFacts, facts]

theorem two_notDeclared : ¬ DeclaredAt two 49 := by
  rintro ⟨p, above, d, ks, hp, h⟩
  have := (Everywhere.place (P := fun _ n => ∀ d ks, n = .decl d ks →
    ¬ ((∃ v, d.kind = .var v ∧ v.loc = 49) ∨ d.kind = .varLike 49)) (by
      simp [two, tu, func, block, node, bin, SampleAst.read, facts, Everywhere, EverywhereL]) hp).2
  exact this d ks rfl h

/-- The hypotheses of `C55_expression` hold for `a + b` in `two`, with and without
optimisation. -/
example (opt : Bool) : ∃ m, MutationAt Sample.cpp opt two [1, 0, 0, 0] m ∧
    m.IsExpr twoAbove twoStmt twoFacts ⟨49, 54⟩ .int := by
  refine C55_expression _ _ _ two_wellFormed _ _ _ _ _ _ _ two_place (two_exprOk opt) ?_ two_notDeclared
  have hcast : ∀ k, ¬ Converted twoAbove twoFacts k := by
    rintro k (⟨n, hn, imp, s, ks, e, dt, rfl, hk, _⟩ | ⟨_, h⟩)
    · simp only [nearest, twoAbove, node, List.head?_cons, Option.map_some, Option.mem_def,
        Option.some.injEq, Node.stmt.injEq] at hn
      rw [← hn.1] at hk
      cases hk
    · simp [twoFacts, facts] at h
  refine ⟨?_, ?_, ?_, ?_, ?_, ?_, ?_⟩
  · simp [twoFacts, facts]
  · simp [twoFacts, facts]
  · simp [twoFacts, facts]
  · rintro ⟨⟨_, h⟩, _⟩; simp [twoFacts, facts] at h
  · rintro ⟨⟨_, _, h⟩, _⟩; simp [twoFacts, facts] at h
  · rintro _ ⟨⟨k, h, _⟩, _⟩; exact hcast k h
  · rintro _ ⟨s, ks, h, hk⟩
    simp [nearest, twoAbove, node] at h
    rw [← h.1] at hk
    simp at hk

/-- The hypotheses of `C55_binary` hold for it too. -/
example (opt : Bool) : ∃ m, MutationAt Sample.cpp opt two [1, 0, 0, 0] m ∧
    ∃ sl el sr er, m.IsBinary twoStmt twoFacts ⟨49, 54⟩ .int .add sl el .int sr er .int := by
  obtain ⟨sl, el, hl⟩ : ∃ sl el, childExpr .lhs [twoLhs, twoRhs] = some (sl, el) ∧ sl.range.isSome = true ∧
    el.ty = some .int ∧ el.intVal = none ∧ el.bitField = false := ⟨_, _, rfl, rfl, rfl, rfl, rfl⟩
  obtain ⟨sr, er, hr⟩ : ∃ sr er, childExpr .rhs [twoLhs, twoRhs] = some (sr, er) ∧ sr.range.isSome = true ∧
    er.ty = some .int := ⟨_, _, rfl, rfl, rfl⟩
  obtain ⟨m, h1, h2⟩ := C55_binary Sample.cpp opt two two_wellFormed _ _ _ _ _ _ _ .add sl el .int sr er .int
    two_place (two_exprOk opt)
    ⟨rfl, childExpr_iff.mp hl.1, childExpr_iff.mp hr.1, hl.2.1, hr.2.1, hl.2.2.1, hr.2.2, by simp,
      fun _ => hl.2.2.2.2, by
        rintro _ ⟨h | h, _⟩
        · rw [hl.2.2.2.1] at h; simp at h
        · simp [BTy.isFloat] at h⟩ two_notDeclared
  exact ⟨m, h1, sl, el, sr, er, h2⟩

/-- `int g(){switch(a){case 1:f();}}`: a call behind a label. -/
def switchFn : Node :=
  tu [func false 0 40 [block 7 40 [node .other .plain 8 36 [read .plain 15 16,
    block 17 36 [node .case_ .plain 18 30 [lit .plain 23 24,
      node (.expr (facts (.call none false false) none false 25)) .plain 25 28 []]]]]]]

theorem switch_wellFormed : WellFormed switchFn := by
  intro p above s ks hp
  refine (Everywhere.place (P := fun _ n => ∀ s ks, n = .stmt s ks →
    (s.kind = .compound → ∀ k ∈ ks, ∃ s' ks', k = .stmt s' ks') ∧
    (s.kind = .case_ → ∀ k ∈ ks, ∃ s' ks', k = .stmt s' ks') ∧
    (s.kind = .default_ → ∃ s' ks', ks = [.stmt s' ks'])) ?_ hp).2 s ks rfl
  simp [switchFn, tu, func, block, node, lit, SampleAst.read, facts, Everywhere, EverywhereL]

/-- The hypotheses of `C55_removal` hold for the call behind the label. -/
example (opt : Bool) : ∃ m s, MutationAt Sample.cpp opt switchFn [0, 0, 0, 1, 0, 1] m ∧
    m.IsRemovalOf s ⟨25, 28⟩ := by
  obtain ⟨above, s, ks, ha, hr, hk, hm⟩ : ∃ above s ks,
      ancestors switchFn [0, 0, 0, 1, 0, 1] = some (above, .stmt s ks) ∧ s.range = some ⟨25, 28⟩ ∧
      s.kind = .expr (facts (.call none false false) none false 25) ∧
      above = (ancestors switchFn [0, 0, 0, 1, 0, 1]).elim [] (·.1) := ⟨_, _, _, rfl, rfl, rfl, rfl⟩
  have hp := ancestors_place _ _ _ _ ha
  simp [ancestors, switchFn, tu, func, block, node, lit, SampleAst.read, Node.kids] at hm
  have hc : Considered Sample.cpp opt (.stmt s ks) above := by
    refine ⟨?_, ?_, ?_⟩
    · rw [hm]; simp [CompileTime, Decl.isTU]
    · rw [hm]; simp [NoPair, CompileTimeChild, Node.cls?]
    · intro _
      rw [hm]
      simp only [NoPointless]
      refine ⟨?_, ?_⟩
      · rintro ⟨_, _, _, e, he, hk', hs⟩
        cases he
        rw [hk] at hk'
        cases hk'
        simp [facts] at hs
      · simp [Pointless]
  refine (C55_removal Sample.cpp opt switchFn switch_wellFormed _ above s ks ⟨25, 28⟩ hp hc
    ⟨?_, hr, ?_, ?_⟩).imp fun m h => ⟨s, h⟩
  · rw [hm]
    exact ⟨[_], _, _, _, _, rfl, rfl, by simp⟩
  · rw [hk]; simp
  · intro _; rw [hk]; simp

/-- `int g(){return -a;}` -/
def negFn : Node :=
  tu [func false 0 40 [block 7 40 [node .other .plain 8 38
    [node (.expr (facts (.unary .minus) (some .int) false 15)) .plain 15 17 [read .operand 16 17]]]]]

theorem neg_wellFormed : WellFormed negFn := by
  intro p above s ks hp
  refine (Everywhere.place (P := fun _ n => ∀ s ks, n = .stmt s ks →
    (s.kind = .compound → ∀ k ∈ ks, ∃ s' ks', k = .stmt s' ks') ∧
    (s.kind = .case_ → ∀ k ∈ ks, ∃ s' ks', k = .stmt s' ks') ∧
    (s.kind = .default_ → ∃ s' ks', ks = [.stmt s' ks'])) ?_ hp).2 s ks rfl
  simp [negFn, tu, func, block, node, SampleAst.read, facts, Everywhere, EverywhereL]

/-- The hypotheses of `C55_unary` hold for `-a`. -/
example (opt : Bool) : ∃ m s ks e e', MutationAt Sample.cpp opt negFn [0, 0, 0, 0] m ∧
    m.IsUnary s ks e ⟨15, 17⟩ .int .minus e' .int := by
  obtain ⟨above, s, e, ks, ha, hr, hk, he, hm⟩ : ∃ above s e ks,
      ancestors negFn [0, 0, 0, 0] = some (above, .stmt s ks) ∧ s.range = some ⟨15, 17⟩ ∧
      s.kind = .expr e ∧ e = facts (.unary .minus) (some .int) false 15 ∧
      above = (ancestors negFn [0, 0, 0, 0]).elim [] (·.1) := ⟨_, _, _, _, rfl, rfl, rfl, rfl, rfl⟩
  obtain ⟨s', e', hch⟩ : ∃ s' e', childExpr .operand ks = some (s', e') ∧ s'.range = some ⟨16, 17⟩ ∧
      e'.ty = some .int ∧ e'.intVal = none := by
    simp [ancestors, negFn, tu, func, block, node, SampleAst.read, Node.kids] at ha
    rw [← ha.2.2]
    exact ⟨_, _, rfl, rfl, rfl, rfl⟩
  have hp := ancestors_place _ _ _ _ ha
  simp [ancestors, negFn, tu, func, block, node, SampleAst.read, Node.kids] at hm
  have hc : Considered Sample.cpp opt (.stmt s ks) above := by
    refine ⟨?_, ?_, ?_⟩
    · rw [hm]; simp [CompileTime, Decl.isTU]
    · rw [hm]; simp [NoPair, CompileTimeChild, Node.cls?]
    · intro _
      rw [hm]
      simp only [NoPointless]
      refine ⟨?_, ?_⟩
      · rintro ⟨_, _, _, e', he', hk', hs⟩
        cases he'
        rw [hk, he] at hk'
        cases hk'
        simp [facts] at hs
      · simp [Pointless]
  refine (C55_unary Sample.cpp opt negFn neg_wellFormed _ above s ks e ⟨15, 17⟩ .int .minus e' .int hp
    ⟨hc, ?_, hk, ?_, hr, by rw [he]; rfl, by rw [he]; rfl, ?_, ?_, ?_⟩
    ⟨by rw [he]; rfl, ⟨s', _, childExpr_iff.mp hch.1, hch.2.1⟩, hch.2.2.1, by simp, by simp, ?_⟩ ?_).imp
    fun m h => ⟨s, ks, e, e', h⟩
  · rintro (⟨e1, h1, h2⟩ | ⟨h1, _⟩)
    · rw [hk, he] at h1
      cases h1
      simp [facts] at h2
    · rw [hk] at h1; cases h1
  · rw [hm]
    exact ⟨[_, _], _, _, _, _, rfl, ⟨_, _, rfl⟩, by simp⟩
  · rintro (⟨⟨_, h⟩, _⟩ | ⟨⟨_, _, h⟩, _⟩) <;> simp [he, facts] at h
  · rw [← mayDependOnTemp_iff]
    simp [mayDependOnTemp, hk, he, facts]
  · intro _; rw [he]; simp [facts]
  · intro _
    refine ⟨?_, by simp⟩
    rintro ⟨_, h | h⟩
    · rw [hch.2.2.2] at h; simp at h
    · simp [BTy.isFloat] at h
  · rintro ⟨p, above, d, ks, hp, h⟩
    have := (Everywhere.place (P := fun _ n => ∀ d ks, n = .decl d ks →
      ¬ ((∃ v, d.kind = .var v ∧ v.loc = 15) ∨ d.kind = .varLike 15)) (by
        simp [negFn, tu, func, block, node, SampleAst.read, facts, Everywhere, EverywhereL]) hp).2
    rw [he] at h
    exact this d ks rfl h

end SampleAst

end Dredd
