/-
The generated functions can be read back (C59).
-/
import Verif.Proofs.CReadSem
import Verif.Proofs.SiteExec
import Verif.Props.C22

namespace Dredd

/-! ### Types -/

theorem name_mem (l : Lang) (t : BTy) : t.name l ∈ [t!"bool", t!"_Bool", t!"char", t!"wchar_t",
    t!"unsigned char", t!"char8_t", t!"char16_t", t!"char32_t", t!"unsigned short", t!"unsigned int",
    t!"unsigned long", t!"unsigned long long", t!"unsigned __int128", t!"signed char", t!"short", t!"int",
    t!"long", t!"long long", t!"__int128", t!"__fp16", t!"float", t!"double", t!"long double",
    t!"_Float16", t!"__bf16", t!"__float128", t!"__ibm128"] := by
  cases t <;> simp only [BTy.name] <;> (try split) <;> decide

theorem ty_name (l : Lang) (t : BTy) : ∀ pre ∈ [t!"", t!"volatile ", t!"const "],
    ∀ post ∈ [t!"", t!"&", t!"*"], goodTy (pre ++ t.name l ++ post) = true ∧
      ((tokens (pre ++ t.name l ++ post)).getLast? = some t!"*" ↔ post = t!"*") := by
  have key : ∀ n ∈ [t!"bool", t!"_Bool", t!"char", t!"wchar_t",
    t!"unsigned char", t!"char8_t", t!"char16_t", t!"char32_t", t!"unsigned short", t!"unsigned int",
    t!"unsigned long", t!"unsigned long long", t!"unsigned __int128", t!"signed char", t!"short", t!"int",
    t!"long", t!"long long", t!"__int128", t!"__fp16", t!"float", t!"double", t!"long double",
    t!"_Float16", t!"__bf16", t!"__float128", t!"__ibm128"], ∀ pre ∈ [t!"", t!"volatile ", t!"const "],
    ∀ post ∈ [t!"", t!"&", t!"*"], goodTy (pre ++ n ++ post) = true ∧
      ((tokens (pre ++ n ++ post)).getLast? = some t!"*" ↔ post = t!"*") := by decide +kernel
  exact key _ (name_mem l t)

theorem ty_plain (l : Lang) (t : BTy) : goodTy (t.name l) = true ∧
    (tokens (t.name l)).getLast? ≠ some t!"*" := by
  have := ty_name l t [] (by decide) [] (by decide)
  simp only [List.nil_append, List.append_nil] at this
  exact ⟨this.1, fun h => absurd (this.2.mp h) (by decide)⟩

theorem cpp_ty (l : Lang) (e : ExprInfo) : goodTy (cppTypeModifiers e (e.ty.name l)) = true ∧
    (tokens (cppTypeModifiers e (e.ty.name l))).getLast? ≠ some t!"*" := by
  unfold cppTypeModifiers
  split
  · have h := fun pre hp => ty_name l e.ty pre hp t!"&" (by decide)
    split
    · exact ⟨(h _ (by decide)).1, fun x => absurd ((h _ (by decide)).2.mp x) (by decide)⟩
    · split
      · exact ⟨(h _ (by decide)).1, fun x => absurd ((h _ (by decide)).2.mp x) (by decide)⟩
      · exact ⟨(h _ (by decide)).1, fun x => absurd ((h _ (by decide)).2.mp x) (by decide)⟩
  · exact ty_plain l e.ty

/-- In C, an object that is passed by its address is not declared `const` (unless also
`volatile`): the text of its type would not be a type. -/
def ExprInfo.NotConst (e : ExprInfo) : Prop := e.lvalue = true → e.const = true → e.volatile = true

theorem c_ty (l : Lang) (e : ExprInfo) (h : e.NotConst) :
    goodTy (cTypeModifiers e (e.ty.name l)) = true ∧
      ((tokens (cTypeModifiers e (e.ty.name l))).getLast? = some t!"*" ↔ e.lvalue = true) := by
  unfold cTypeModifiers
  cases hl : e.lvalue with
  | false => exact ⟨(ty_plain l e.ty).1, by simpa using (ty_plain l e.ty).2⟩
  | true =>
    simp only [if_true]
    cases hv : e.volatile with
    | true =>
      have := ty_name l e.ty t!"volatile " (by decide) t!"*" (by decide)
      exact ⟨this.1, by simpa using this.2⟩
    | false =>
      have hc : e.const = false := by
        cases hc : e.const with
        | false => rfl
        | true => rw [h hl hc] at hv; cases hv
      have := ty_name l e.ty [] (by decide) t!"*" (by decide)
      simp only [hc, Bool.false_eq_true, if_false]
      exact ⟨this.1, by simpa using this.2⟩

/-! ### Names -/

theorem wordText_append {a b : Text} (ha : wordText a = true) (hb : b.all wordChar = true) :
    wordText (a ++ b) = true := by
  cases a with
  | nil => cases ha
  | cons c cs =>
    simp only [wordText, Bool.and_eq_true, List.cons_append, List.all_append] at ha ⊢
    exact ⟨ha.1, ha.2, hb⟩

theorem under_name (l : Lang) (t : BTy) : (spaceToUnderscore (t.name l)).all wordChar = true := by
  have key : ∀ n ∈ [t!"bool", t!"_Bool", t!"char", t!"wchar_t",
    t!"unsigned char", t!"char8_t", t!"char16_t", t!"char32_t", t!"unsigned short", t!"unsigned int",
    t!"unsigned long", t!"unsigned long long", t!"unsigned __int128", t!"signed char", t!"short", t!"int",
    t!"long", t!"long long", t!"__int128", t!"__fp16", t!"float", t!"double", t!"long double",
    t!"_Float16", t!"__bf16", t!"__float128", t!"__ibm128"],
    (spaceToUnderscore n).all wordChar = true := by decide
  exact key _ (name_mem l t)

theorem ite_word {c : Prop} [Decidable c] {a b : Text} (ha : a.all wordChar = true)
    (hb : b.all wordChar = true) : (if c then a else b).all wordChar = true := by
  split
  · exact ha
  · exact hb

theorem suffix_word (e : ExprInfo) {a b c : Text} (ha : a.all wordChar = true)
    (hb : b.all wordChar = true) (hc : c.all wordChar = true) :
    (operandSuffix e a b c).all wordChar = true :=
  ite_word ha (ite_word hb (ite_word hc rfl))

theorem BinSite.name_word (s : BinSite) (l : Lang) (opt : Bool) : wordText (s.fnName l opt) = true := by
  unfold BinSite.fnName
  refine wordText_append (wordText_append (wordText_append (wordText_append (wordText_append
    (wordText_append rfl ?_) (by decide)) ?_) (by decide)) (under_name l _)) ?_
  · cases s.op <;> decide
  · rw [spaceToUnderscore, List.map_append, List.all_append, Bool.and_eq_true]
    refine ⟨?_, under_name l _⟩
    split <;> decide
  · refine ite_word ?_ rfl
    rw [List.all_append, Bool.and_eq_true]
    exact ⟨suffix_word _ (by decide) (by decide) (by decide),
      suffix_word _ (by decide) (by decide) (by decide)⟩

theorem UnSite.name_word (s : UnSite) (l : Lang) (opt : Bool) : wordText (s.fnName l opt) = true := by
  unfold UnSite.fnName
  refine wordText_append (wordText_append (wordText_append (wordText_append (wordText_append
    (wordText_append (wordText_append rfl ?_) ?_) (by decide)) (under_name l _)) ?_) ?_) ?_
  · cases s.op <;> decide
  all_goals exact ite_word (by decide) rfl

theorem ExprSite.name_word (s : ExprSite) (l : Lang) (opt : Bool) : wordText (s.fnName l opt) = true := by
  unfold ExprSite.fnName
  refine wordText_append (wordText_append (wordText_append (wordText_append rfl ?_) (under_name l _))
    ?_) ?_
  · exact ite_word (by decide) rfl
  · exact ite_word (by decide) rfl
  · refine ite_word ?_ rfl
    unfold ExprSite.optSpecifier
    simp only [List.all_append, Bool.and_eq_true]
    refine ⟨⟨⟨⟨?_, ?_⟩, ?_⟩, ?_⟩, ?_⟩ <;>
      repeat (first | rfl | apply ite_word)

/-! ### Bodies -/

theorem BinSite.clause_ok {s : BinSite} {opt : Bool} {e : RetE} {x : BAct}
    (h : (e, x) ∈ s.clauses opt) : retOk e = true ∧ ∀ a ∈ e.args, a = .arg1 ∨ a = .arg2 := by
  unfold BinSite.clauses at h
  rw [List.mem_append] at h
  rcases h with h | h
  · obtain ⟨op, hop, he⟩ := List.mem_map.1 h
    simp only [Prod.mk.injEq] at he
    obtain ⟨rfl, rfl⟩ := he
    have := (BinSite.mem_replacements hop).1
    refine ⟨?_, by simp [RetE.args]⟩
    cases op <;> first | rfl | (revert this; decide)
  · unfold BinSite.argClauses at h
    split at h
    · simp at h
    split at h
    · simp at h
    · rw [List.mem_append] at h
      rcases h with h | h <;> split at h <;>
        simp only [List.mem_singleton, List.not_mem_nil, Prod.mk.injEq] at h <;>
        obtain ⟨rfl, rfl⟩ := h <;> exact ⟨rfl, by simp [RetE.args]⟩

theorem UnSite.clause_ok {s : UnSite} {opt : Bool} {e : RetE} {x : UAct}
    (h : (e, x) ∈ s.clauses opt) : retOk e = true ∧ ∀ a ∈ e.args, a = .arg := by
  unfold UnSite.clauses at h
  rw [List.mem_append] at h
  rcases h with h | h
  · obtain ⟨op, hop, he⟩ := List.mem_map.1 h
    simp only [Prod.mk.injEq] at he
    obtain ⟨rfl, rfl⟩ := he
    have := (UnSite.mem_replacements hop).1
    refine ⟨?_, by simp [RetE.args]⟩
    cases op <;> first | rfl | (revert this; decide)
  · split at h <;> simp only [List.mem_singleton, List.not_mem_nil, Prod.mk.injEq] at h
    obtain ⟨rfl, rfl⟩ := h
    exact ⟨rfl, by simp [RetE.args]⟩

theorem ExprSite.clause_ok {s : ExprSite} {l : Lang} {opt : Bool} {e : RetE} {x : EAct}
    (h : (e, x) ∈ s.clauses l opt) : retOk e = true ∧ ∀ a ∈ e.args, a = .arg := by
  unfold ExprSite.clauses at h
  simp only [List.mem_append] at h
  rcases h with (h | h) | h
  · split at h
    · simp at h
    · simp only [List.mem_cons, List.not_mem_nil, or_false, Prod.mk.injEq] at h
      rcases h with ⟨rfl, rfl⟩ | ⟨rfl, rfl⟩ <;> exact ⟨rfl, by simp [RetE.args]⟩
  · split at h
    · simp at h
    · simp only [List.mem_append] at h
      rcases h with (h | h) | h <;> have h := mem_ite_singleton h <;>
        simp only [Prod.mk.injEq] at h <;> obtain ⟨rfl, rfl⟩ := h <;> exact ⟨rfl, by simp [RetE.args]⟩
  · split at h
    · simp at h
    · simp only [List.mem_append] at h
      rcases h with ((((((h | h) | h) | h) | h) | h) | h) | h <;> have h := mem_ite_singleton h <;>
        simp only [Prod.mk.injEq] at h <;> obtain ⟨rfl, rfl⟩ := h <;> exact ⟨rfl, by simp [RetE.args]⟩

theorem mem_guardsFrom_clause {α : Type} {k : Nat} {cs : List (RetE × α)} {x : Line}
    (h : x ∈ guardsFrom k cs) : ∃ j, ∃ p ∈ cs, x = .guard j p.1 := by
  induction cs generalizing k with
  | nil => simp [guardsFrom] at h
  | cons c cs ih =>
    simp only [guardsFrom, List.mem_cons] at h
    rcases h with rfl | h
    · exact ⟨k, c, by simp, rfl⟩
    · obtain ⟨j, p, hp, e⟩ := ih h
      exact ⟨j, p, List.mem_cons_of_mem _ hp, e⟩

/-- Lines of the usual form. -/
theorem usual_lines {α : Type} {P : Arg → Prop} {track : Bool} {e : RetE} {n : Nat}
    {cs : List (RetE × α)} (he : retOk e = true ∧ ∀ a ∈ e.args, P a)
    (hc : ∀ p ∈ cs, retOk p.1 = true ∧ ∀ a ∈ p.1.args, P a) :
    ∀ x ∈ (if track then [Line.record n, .ret e] else .quick e :: (guardsFrom 0 cs ++ [.ret e])),
      lineOk x = true ∧ ∀ a ∈ x.args, P a := by
  intro x hx
  split at hx
  · simp only [List.mem_cons, List.not_mem_nil, or_false] at hx
    rcases hx with rfl | rfl
    · exact ⟨rfl, by simp [Line.args]⟩
    · exact he
  · simp only [List.mem_cons, List.mem_append, List.not_mem_nil, or_false] at hx
    rcases hx with rfl | hx | rfl
    · exact he
    · obtain ⟨j, p, hp, rfl⟩ := mem_guardsFrom_clause hx
      exact hc p hp
    · exact he

/-! ### Functions -/

/-- What is needed of a point for its functions to be readable: the operator is one that the tool
mutates, and in C an operand is passed by its address exactly if its type says so. -/
def Mutation.Readable (l : Lang) : Mutation → Prop
  | .bin s => s.op.fnName?.isSome = true
  | .un s => s.op.fnName?.isSome = true ∧
      (l.cpp = false → s.sub.lvalue = s.op.isIncDec ∧ s.sub.NotConst)
  | .expr s => l.cpp = false → s.self.NotConst
  | .stmt _ => True

theorem BinSite.fn_plain (s : BinSite) (l : Lang) (o : Options) (id : Nat)
    (h : s.op.fnName?.isSome = true) :
    (s.genFn l o id).Plain ∧
      (∀ p ∈ (s.genFn l o id).params, p.Shown) ∧
      ∀ x ∈ (s.genFn l o id).lines, ∀ a ∈ x.args, a = .arg1 ∨ a = .arg2 := by
  have hl := s.genFn_lines l o id
  have hu := usual_lines (P := fun a => a = .arg1 ∨ a = .arg2) (track := o.track)
    (n := (s.clauses o.optimise).length)
    (e := .bin s.op) (cs := s.clauses o.optimise) ⟨h, by simp [RetE.args]⟩
    fun p hp => BinSite.clause_ok (x := p.2) hp
  rw [← hl] at hu
  have h1 : goodTy (s.lhsTyText l) = true ∧ (⟨.arg1, s.lhsTyText l, s.mode1 l⟩ : Param).Shown := by
    have hv := fun post hp => ty_name l s.lhs.ty t!"volatile " (by decide) post hp
    have hn := fun post hp => ty_name l s.lhs.ty [] (by decide) post hp
    unfold Param.Shown BinSite.lhsTyText BinSite.mode1
    have hp := ty_plain l s.lhs.ty
    have hvr := hv t!"&" (by decide)
    have hvp := hv t!"*" (by decide)
    have hnr := hn t!"&" (by decide)
    have hnp := hn t!"*" (by decide)
    simp only [List.nil_append] at hnr hnp
    cases l.cpp <;> cases s.op.isAssign <;> cases s.lhs.volatile <;> cases s.lhs.sideEffects <;>
      simp_all
  have h2 : goodTy (s.rhs.ty.name l) = true ∧ (⟨.arg2, s.rhs.ty.name l, s.mode2 l⟩ : Param).Shown := by
    have hp := ty_plain l s.rhs.ty
    refine ⟨hp.1, fun _ => hp.2, ?_⟩
    unfold BinSite.mode2
    intro hm
    split at hm <;> cases hm
  have h3 : goodTy (s.resTyText l) = true := by
    unfold BinSite.resTyText
    have hp := ty_plain l s.resTy
    have hv := (ty_name l s.resTy t!"volatile " (by decide) t!"&" (by decide)).1
    have hn := (ty_name l s.resTy [] (by decide) t!"&" (by decide)).1
    simp only
    split
    · split
      · exact hv
      · exact hn
    · exact hp.1
  refine ⟨⟨h3, s.name_word l _, ?_, fun x hx => (hu x hx).1, .inr rfl⟩, ?_, fun x hx => (hu x hx).2⟩
  · intro p hp
    simp only [BinSite.genFn, List.mem_cons, List.not_mem_nil, or_false] at hp
    rcases hp with rfl | rfl
    · exact h1.1
    · exact h2.1
  · intro p hp
    simp only [BinSite.genFn, List.mem_cons, List.not_mem_nil, or_false] at hp
    rcases hp with rfl | rfl
    · exact h1.2
    · exact h2.2

theorem UnSite.fn_plain (s : UnSite) (l : Lang) (o : Options) (id : Nat)
    (h : (Mutation.un s).Readable l) :
    (s.genFn l o id).Plain ∧
      (∀ p ∈ (s.genFn l o id).params, p.Shown) ∧
      ∀ x ∈ (s.genFn l o id).lines, ∀ a ∈ x.args, a = .arg := by
  have hl := s.genFn_lines l o id
  have hu := usual_lines (P := fun a => a = .arg) (track := o.track)
    (n := (s.clauses o.optimise).length)
    (e := .un s.op) (cs := s.clauses o.optimise) ⟨h.1, by simp [RetE.args]⟩
    fun p hp => UnSite.clause_ok (x := p.2) hp
  rw [← hl] at hu
  have h1 : goodTy (s.inputTy l) = true ∧ (⟨.arg, s.inputTy l, s.mode l⟩ : Param).Shown := by
    unfold Param.Shown UnSite.inputTy UnSite.mode
    cases hc : l.cpp with
    | true =>
      have := cpp_ty l s.sub
      refine ⟨this.1, fun _ => this.2, ?_⟩
      cases s.self.sideEffects <;> simp
    | false =>
      obtain ⟨ha, hb⟩ := h.2 hc
      have := c_ty l s.sub hb
      rw [ha] at this
      refine ⟨this.1, ?_, ?_⟩
      · cases hi : s.op.isIncDec <;> simp_all
      · cases hi : s.op.isIncDec <;> simp_all
  have h3 : goodTy (s.resTyText l) = true := by
    unfold UnSite.resTyText
    split
    · exact (cpp_ty l s.self).1
    · exact (ty_plain l s.self.ty).1
  refine ⟨⟨h3, s.name_word l _, ?_, fun x hx => (hu x hx).1, .inr rfl⟩, ?_, fun x hx => (hu x hx).2⟩
  · intro p hp
    simp only [UnSite.genFn, List.mem_singleton] at hp
    rw [hp]
    exact h1.1
  · intro p hp
    simp only [UnSite.genFn, List.mem_singleton] at hp
    rw [hp]
    exact h1.2

theorem ExprSite.fn_plain (s : ExprSite) (l : Lang) (o : Options) (id : Nat)
    (h : (Mutation.expr s).Readable l) :
    (s.genFn l o id).Plain ∧
      (∀ p ∈ (s.genFn l o id).params, p.Shown) ∧
      ∀ x ∈ (s.genFn l o id).lines, ∀ a ∈ x.args, a = .arg := by
  have hl := s.genFn_lines l o id
  have hu := usual_lines (P := fun a => a = .arg) (track := o.track)
    (n := (s.clauses l o.optimise).length)
    (e := .arg .arg) (cs := s.clauses l o.optimise) ⟨rfl, by simp [RetE.args]⟩
    fun p hp => ExprSite.clause_ok (x := p.2) hp
  rw [← hl] at hu
  have h1 : goodTy (s.inputTy l) = true ∧ (⟨.arg, s.inputTy l, s.mode l⟩ : Param).Shown := by
    unfold Param.Shown ExprSite.inputTy ExprSite.mode
    cases hc : l.cpp with
    | true =>
      have := cpp_ty l s.self
      refine ⟨this.1, fun _ => this.2, ?_⟩
      cases s.self.sideEffects <;> simp
    | false =>
      have := c_ty l s.self (h hc)
      refine ⟨this.1, ?_, ?_⟩
      · cases hi : s.self.lvalue <;> simp_all
      · cases hi : s.self.lvalue <;> simp_all
  refine ⟨⟨(ty_plain l s.self.ty).1, s.name_word l _, ?_, fun x hx => (hu x hx).1, .inr rfl⟩, ?_,
    fun x hx => (hu x hx).2⟩
  · intro p hp
    simp only [ExprSite.genFn, List.mem_singleton] at hp
    rw [hp]
    exact h1.1
  · intro p hp
    simp only [ExprSite.genFn, List.mem_singleton] at hp
    rw [hp]
    exact h1.2

/-- A function whose parameter is passed by value. -/
theorem value_plain {f : MutFn} {l : Lang} {t t' : BTy} {n : Text} {xs : List Line}
    (h : f = ⟨t.name l, n, [⟨.arg, t'.name l, .value⟩], xs, t!"}\n"⟩) (hn : wordText n = true)
    (hx : ∀ x ∈ xs, lineOk x = true ∧ ∀ a ∈ x.args, a = .arg) :
    f.Plain ∧ (∀ p ∈ f.params, p.Shown) ∧ ∀ x ∈ f.lines, ∀ a ∈ x.args, a = .arg := by
  subst h
  refine ⟨⟨(ty_plain l t).1, hn, ?_, fun x h => (hx x h).1, .inl rfl⟩, ?_, fun x h => (hx x h).2⟩
  · intro p hp
    simp only [List.mem_singleton] at hp
    rw [hp]
    exact (ty_plain l t').1
  · intro p hp
    simp only [List.mem_singleton] at hp
    rw [hp]
    exact ⟨fun _ => (ty_plain l t').2, fun h => by cases h⟩

theorem cLogical_plain (s : BinSite) (l : Lang) (o : Options) (f : MutFn)
    (h : f = cLogicalLhsFn s l o ∨ f = cLogicalRhsFn s l o ∨ f = cLogicalOuterFn s l o) :
    f.Plain ∧ (∀ p ∈ f.params, p.Shown) ∧ ∀ x ∈ f.lines, ∀ a ∈ x.args, a = .arg := by
  rcases h with rfl | rfl | rfl
  · refine value_plain rfl (wordText_append (s.name_word l _) (by decide)) ?_
    cases s.op == .land <;> simp [lineOk, retOk, Line.args, RetE.args, UOp.fnName?]
  · refine value_plain rfl (wordText_append (s.name_word l _) (by decide)) ?_
    cases s.op == .land <;> simp [lineOk, retOk, Line.args, RetE.args, UOp.fnName?]
  · refine value_plain rfl (wordText_append (s.name_word l _) (by decide)) ?_
    cases o.track <;> simp [lineOk, retOk, Line.args, RetE.args, UOp.fnName?]

theorem decls_plain (m : Mutation) (l : Lang) (o : Options) (first id : Nat) (h : m.Readable l)
    (f : MutFn) (hf : f ∈ (m.apply l o first id).decls) : f.Plain := by
  cases m with
  | bin s =>
    rcases BinSite.decls_cases hf with ⟨_, rfl⟩ | ⟨_, hf⟩
    · exact (s.fn_plain l o id h).1
    · exact (cLogical_plain s l o f hf).1
  | un s => rw [UnSite.decls_eq hf]; exact (s.fn_plain l o id h).1
  | expr s => rw [ExprSite.decls_eq hf]; exact (s.fn_plain l o id h).1
  | stmt s => exact absurd hf List.not_mem_nil

end Dredd
