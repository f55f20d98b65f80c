/-
C79: every constant that has to be rewritten is.
-/
import Verif.Proofs.Records
import Verif.Props.C39
import Verif.Props.C40

namespace Dredd

theorem savedArg_complete : (x : TArg) → ∀ a, x.Mentions a → a ∈ savedArg x
  | .expr e, a, h => by
    cases h
    simp [savedArg]
  | .type as, a, h => by
    cases h with
    | type hx hm =>
      rw [savedArg]
      exact list as _ hx a hm
  | .other, a, h => by cases h
where
  list : (as : List TArg) → ∀ x ∈ as, ∀ a, x.Mentions a → a ∈ savedArg.savedArgs as
  | [], x, hx, a, h => by simp at hx
  | y :: ys, x, hx, a, h => by
    rw [savedArg.savedArgs]
    rcases List.mem_cons.mp hx with e | hx
    · exact List.mem_append_left _ (savedArg_complete y a (e ▸ h))
    · exact List.mem_append_right _ (list ys x hx a h)

/-- What is recorded stays recorded. -/
theorem noteRec_mono (l : Lang) (r : Recs) (e : Ctx × Node) :
    (∀ a ∈ r.arrays, a ∈ (noteRec l r e).arrays) ∧ (∀ a ∈ r.asserts, a ∈ (noteRec l r e).asserts) ∧
      ∀ a ∈ r.args, a ∈ (noteRec l r e).args := by
  obtain ⟨c, n⟩ := e
  cases n with
  | decl d ks =>
    obtain ⟨kind, range⟩ := d
    cases kind <;> simp [noteRec, noteDecl, VState.recs] <;> grind
  | stmt s ks => simp [noteRec]; grind
  | other o ks => simp [noteRec]

theorem foldl_mono (l : Lang) (evs : List (Ctx × Node)) (r : Recs) :
    (∀ a ∈ r.arrays, a ∈ (evs.foldl (noteRec l) r).arrays) ∧
      (∀ a ∈ r.asserts, a ∈ (evs.foldl (noteRec l) r).asserts) ∧
      ∀ a ∈ r.args, a ∈ (evs.foldl (noteRec l) r).args := by
  induction evs generalizing r with
  | nil => simp
  | cons e evs ih =>
    rw [List.foldl_cons]
    obtain ⟨h1, h2, h3⟩ := noteRec_mono l r e
    obtain ⟨i1, i2, i3⟩ := ih (noteRec l r e)
    exact ⟨fun a h => i1 a (h1 a h), fun a h => i2 a (h2 a h), fun a h => i3 a (h3 a h)⟩

/-- What a node records is recorded in the end. -/
theorem foldl_of_mem (l : Lang) {e : Ctx × Node} : (evs : List (Ctx × Node)) → e ∈ evs → (r : Recs) →
    ∃ r', (∀ a ∈ (noteRec l r' e).arrays, a ∈ (evs.foldl (noteRec l) r).arrays) ∧
      (∀ a ∈ (noteRec l r' e).asserts, a ∈ (evs.foldl (noteRec l) r).asserts) ∧
      ∀ a ∈ (noteRec l r' e).args, a ∈ (evs.foldl (noteRec l) r).args
  | e' :: evs, h, r => by
    rcases List.mem_cons.mp h with rfl | h
    · exact ⟨r, foldl_mono l evs _⟩
    · exact foldl_of_mem l evs h _

/-- A node of the main file that is looked at records its constants. -/
theorem recorded {l : Lang} {opt : Bool} {root : Node} (hw : WellFormed root) {p above n}
    (hp : Place root p above n) (hc : Considered l opt n above)
    (hr : ∀ d ks, n = .decl d ks → d.range.isSome = true)
    (hs : ∀ s ks, n = .stmt s ks → ∃ e a adl m, s.kind = .expr e ∧ e.cls = .call (some a) adl m) :
    (∃ o ks, n = .other o ks) ∨ ∃ c r, c.above = above.map (·.1.info) ∧
      (∀ a ∈ (noteRec l r (c, n)).arrays, a ∈ (visitTU l opt root).arrays) ∧
      (∀ a ∈ (noteRec l r (c, n)).asserts, a ∈ (visitTU l opt root).asserts) ∧
      ∀ a ∈ (noteRec l r (c, n)).args, a ∈ (visitTU l opt root).args := by
  obtain ⟨c, h1, h2, h3, -, h5⟩ := hp.path hw hc.outside hc.pairs hc.useful
  obtain ⟨evs, e1, e2, -⟩ := visitTU_logs l opt root
  have fin : Records opt (c, n) → ∃ r,
      (∀ a ∈ (noteRec l r (c, n)).arrays, a ∈ (visitTU l opt root).arrays) ∧
      (∀ a ∈ (noteRec l r (c, n)).asserts, a ∈ (visitTU l opt root).asserts) ∧
      ∀ a ∈ (noteRec l r (c, n)).args, a ∈ (visitTU l opt root).args := by
    intro h
    obtain ⟨r, i1, i2, i3⟩ := foldl_of_mem l evs ((e2 (c, n)).mpr ⟨h1, h⟩) VState.start.recs
    rw [← e1] at i1 i2 i3
    exact ⟨r, i1, i2, i3⟩
  match n with
  | .other o ks => exact .inl ⟨o, ks, rfl⟩
  | .decl d ks =>
    refine .inr ?_
    have hi : isItem c.above = false := by
      rw [Bool.eq_false_iff, h3]
      intro h
      obtain ⟨_, _, he⟩ := h5 (isItem_iff.mp h)
      cases he
    obtain ⟨r, h⟩ := fin ⟨hi, .inr (hr d ks rfl)⟩
    exact ⟨c, r, h3, h⟩
  | .stmt s ks =>
    refine .inr ?_
    obtain ⟨e, a, adl, m, hk, hcls⟩ := hs s ks rfl
    have hi : isItem c.above = true → s.kind ≠ .case_ ∧ s.kind ≠ .default_ ∧ pointless opt s = false := by
      intro hi
      rw [h3] at hi
      refine ⟨by simp [hk], by simp [hk], pointless_false (ks := ks) fun ho => ?_⟩
      have hu := hc.useful ho
      cases above with
      | nil => simp [isItem] at hi
      | cons x rest => exact fun hp => hu.1 ⟨isItem_iff.mp hi, hp⟩
    obtain ⟨r, h⟩ := fin ⟨by simp [skipStmt, hk, hcls], hi⟩
    exact ⟨c, r, h3, h⟩

/-- A constant that the node needs at compile time, where the visitor looks for them: in C++ the sizes
of an array that a variable or a member of a class is; the template arguments in the type of a variable;
the argument of `__builtin_frame_address`. -/
inductive NeedsConstant (l : Lang) (a : ConstArg) : Node → Prop
  | field {d ks dims} : l.cpp = true → d.kind = .field true dims → a ∈ dims → NeedsConstant l a (.decl d ks)
  | var {d ks v} : l.cpp = true → d.kind = .var v → v.constArray = true → a ∈ v.dims →
      NeedsConstant l a (.decl d ks)
  | template {d ks v x} : d.kind = .var v → x ∈ v.targs → x.Mentions a → NeedsConstant l a (.decl d ks)
  | frame {s ks e adl member} : s.kind = .expr e → e.cls = .call (some a) adl member →
      NeedsConstant l a (.stmt s ks)

/-- In the main file, as far as declarations are concerned. -/
def DeclInFile (n : Node) : Prop := ∀ d ks, n = .decl d ks → d.range.isSome = true

theorem frameArg_considered {l : Lang} {opt : Bool} {above : List (Node × Nat)} {s : AStmt} {ks : List Node}
    {e : ExprFacts} {a : ConstArg} {adl m : Bool} (hk : s.kind = .expr e) (hcls : e.cls = .call (some a) adl m)
    (hc : Considered l opt (.stmt s ks) above) : frameArg (above.map (·.1.info)) s = [a] := by
  unfold frameArg
  rw [hk]
  simp only [hcls]
  rw [if_neg]
  intro h
  cases above with
  | nil => simp [parentCls] at h
  | cons x rest =>
    refine hc.pairs.1 ⟨s, ks, rfl, ?_⟩
    have hcl : parentCls (x.1.info :: rest.map (·.1.info)) = x.1.cls? := by
      rw [cls?_info]; rfl
    simp only [List.map_cons, hcl, Bool.or_eq_true, Bool.and_eq_true, beq_iff_eq, List.head?_cons,
      Option.bind_some] at h
    rcases h with (h | ⟨h, h'⟩) | ⟨h, h'⟩
    · exact .inl h
    · refine .inr (.inr ⟨h', ?_⟩)
      obtain ⟨x, i⟩ := x
      cases x with
      | stmt s' ks' => exact ⟨s', ks', rfl, by simpa [Node.info, NodeInfo.kind?] using h⟩
      | decl d ks => simp [Node.info, NodeInfo.kind?] at h
      | other o ks => simp [Node.info, NodeInfo.kind?] at h
    · exact .inr (.inl ⟨h, h'⟩)

/-- C79: the condition of every static assertion in code that is looked at is replaced by `1`. -/
theorem C79_assert (o : Options) (first : Nat) (f : ParsedFile) (hw : WellFormed f.ast) (p : List Nat)
    (above : List (Node × Nat)) (n : Node) (a : ConstArg) (sp : Span)
    (hp : Place f.ast p above n) (hc : Considered f.lang o.optimise n above) (hf : DeclInFile n)
    (ha : Asserts a n) (hr : a.range = some sp) :
    ∃ t, Edit.replace sp.b (sp.e - sp.b) t ∈ fileEdits o first (analyse o.optimise f) ∧ IntLiteral t 1 := by
  obtain ⟨d, ks, rfl, hk⟩ := ha
  refine ⟨natDec 1, ?_, natDec_literal 1⟩
  rcases recorded hw hp hc hf (by intro s ks h; cases h) with ⟨_, _, h⟩ | ⟨c, r, -, -, h, -⟩
  · cases h
  have hm : a ∈ (visitTU f.lang o.optimise f.ast).asserts := by
    refine h a ?_
    obtain ⟨kind, range⟩ := d
    simp only at hk
    subst hk
    simp [noteRec, noteDecl, VState.recs]
  simp only [fileEdits, finishEdits, List.mem_append, List.mem_map]
  refine .inl (.inl (.inr ⟨⟨sp, 1⟩, ?_, rfl⟩))
  simp only [analyse, constRewrites, List.mem_append, List.mem_flatMap]
  exact .inl (.inr ⟨a, hm, by simp [rewriteConst, hr]⟩)

/-- C79: every constant that is needed at compile time, in code that is looked at, is replaced by a
literal for its value; from 0 to the greatest 64-bit number the literal has the value.

Which expression it is, is told by its address: arguments with the same address are the same. -/
theorem C79_constant (o : Options) (first : Nat) (f : ParsedFile) (hw : WellFormed f.ast) (p : List Nat)
    (above : List (Node × Nat)) (n : Node) (a : ConstArg) (sp : Span) (v : ApInt)
    (hp : Place f.ast p above n) (hc : Considered f.lang o.optimise n above) (hf : DeclInFile n)
    (ha : NeedsConstant f.lang a n) (hr : a.range = some sp) (hv : a.value = some v)
    (hsame : ∀ a', Somewhere f.ast (UsesConstant a') → a'.addr = a.addr → a' = a) :
    ∃ t, Edit.replace sp.b (sp.e - sp.b) t ∈ fileEdits o first (analyse o.optimise f) ∧
      (0 ≤ v.value → v.value < 2 ^ 64 → IntLiteral t v.value) := by
  refine ⟨natDec v.limited, ?_, fun h0 h1 => ?_⟩
  · simp only [fileEdits, finishEdits, List.mem_append, List.mem_map]
    refine .inl (.inl (.inr ⟨⟨sp, v.limited⟩, ?_, rfl⟩))
    have hmem : ⟨sp, v.limited⟩ ∈ rewriteToValue a := by simp [rewriteToValue, rewriteConst, hv, hr]
    have harr : a ∈ (visitTU f.lang o.optimise f.ast).arrays →
        (⟨sp, v.limited⟩ : ConstRewrite) ∈ (analyse o.optimise f).consts := by
      intro h
      simp only [analyse, constRewrites, List.mem_append, List.mem_flatMap]
      exact .inl (.inl ⟨a, h, hmem⟩)
    have harg : a ∈ (visitTU f.lang o.optimise f.ast).args →
        (⟨sp, v.limited⟩ : ConstRewrite) ∈ (analyse o.optimise f).consts := by
      intro h
      obtain ⟨a', h1, h2⟩ := (C39_once (visitTU f.lang o.optimise f.ast)).2 a h
      have := hsame a' ((visitTU_noted (notes_ast f.lang f.ast) o.optimise).2.2 a' (mem_freshArgs h1)) h2
      subst this
      simp only [analyse, constRewrites, List.mem_append, List.mem_flatMap]
      exact .inr ⟨_, h1, hmem⟩
    cases ha with
    | @field d ks dims hl hk hd =>
      rcases recorded hw hp hc hf (by intro s ks h; cases h) with ⟨_, _, h⟩ | ⟨c, r, -, h, -⟩
      · cases h
      refine harr (h a ?_)
      obtain ⟨kind, range⟩ := d
      simp only at hk
      subst hk
      simp [noteRec, noteDecl, VState.recs, hl, hd]
    | @var d ks v' hl hk hca hd =>
      rcases recorded hw hp hc hf (by intro s ks h; cases h) with ⟨_, _, h⟩ | ⟨c, r, -, h, -⟩
      · cases h
      refine harr (h a ?_)
      obtain ⟨kind, range⟩ := d
      simp only at hk
      subst hk
      simp [noteRec, noteDecl, VState.recs, hl, hd, hca]
    | @template d ks v' x hk hx hm =>
      rcases recorded hw hp hc hf (by intro s ks h; cases h) with ⟨_, _, h⟩ | ⟨c, r, -, -, -, h⟩
      · cases h
      refine harg (h a ?_)
      obtain ⟨kind, range⟩ := d
      simp only at hk
      subst hk
      simp only [noteRec, noteDecl, VState.recs, List.mem_append, List.mem_flatMap]
      exact .inr ⟨x, hx, savedArg_complete x a hm⟩
    | @frame s ks e adl m hk hcls =>
      rcases recorded hw hp hc hf (by intro s' ks' h; cases h; exact ⟨e, a, adl, m, hk, hcls⟩)
        with ⟨_, _, h⟩ | ⟨c, r, hab, -, -, h⟩
      · cases h
      refine harg (h a ?_)
      simp only [noteRec, List.mem_append]
      right
      rw [hab, frameArg_considered hk hcls hc]
      simp
  · rw [← limited_value v h0 h1]
    exact natDec_literal _

/-! ### With and without optimisation -/

/-- What is recorded in the end was recorded at some node. -/
theorem mem_foldl (l : Lang) (evs : List (Ctx × Node)) (r : Recs) :
    (∀ a ∈ (evs.foldl (noteRec l) r).arrays, a ∈ r.arrays ∨ ∃ e ∈ evs, ∀ r', a ∈ (noteRec l r' e).arrays) ∧
    (∀ a ∈ (evs.foldl (noteRec l) r).asserts, a ∈ r.asserts ∨ ∃ e ∈ evs, ∀ r', a ∈ (noteRec l r' e).asserts) ∧
    ∀ a ∈ (evs.foldl (noteRec l) r).args, a ∈ r.args ∨ ∃ e ∈ evs, ∀ r', a ∈ (noteRec l r' e).args := by
  induction evs generalizing r with
  | nil => exact ⟨fun a h => .inl h, fun a h => .inl h, fun a h => .inl h⟩
  | cons e evs ih =>
    have h : (∀ a ∈ (noteRec l r e).arrays, a ∈ r.arrays ∨ ∀ r', a ∈ (noteRec l r' e).arrays) ∧
        (∀ a ∈ (noteRec l r e).asserts, a ∈ r.asserts ∨ ∀ r', a ∈ (noteRec l r' e).asserts) ∧
        ∀ a ∈ (noteRec l r e).args, a ∈ r.args ∨ ∀ r', a ∈ (noteRec l r' e).args := by
      obtain ⟨c, n⟩ := e
      cases n with
      | decl d ks =>
        obtain ⟨kind, range⟩ := d
        cases kind <;> simp [noteRec, noteDecl, VState.recs] <;> grind
      | stmt s ks => simp [noteRec]; grind
      | other o ks => cases o <;> simp [noteRec] <;> grind
    obtain ⟨h1, h2, h3⟩ := h
    obtain ⟨i1, i2, i3⟩ := ih (noteRec l r e)
    rw [List.foldl_cons]
    refine ⟨fun a ha => ?_, fun a ha => ?_, fun a ha => ?_⟩
    · rcases i1 a ha with ha | ⟨x, hx, ha⟩
      · rcases h1 a ha with ha | ha
        · exact .inl ha
        · exact .inr ⟨e, by simp, ha⟩
      · exact .inr ⟨x, by simp [hx], ha⟩
    · rcases i2 a ha with ha | ⟨x, hx, ha⟩
      · rcases h2 a ha with ha | ha
        · exact .inl ha
        · exact .inr ⟨e, by simp, ha⟩
      · exact .inr ⟨x, by simp [hx], ha⟩
    · rcases i3 a ha with ha | ⟨x, hx, ha⟩
      · rcases h3 a ha with ha | ha
        · exact .inl ha
        · exact .inr ⟨e, by simp, ha⟩
      · exact .inr ⟨x, by simp [hx], ha⟩

theorem pointless_off (s : AStmt) : pointless false s = false := by
  unfold pointless
  split <;> rfl

theorem Path.unoptimised {l root c n} (h : Path l true root c n) : Path l false root c n := by
  induction h with
  | root => exact .root
  | decl _ hi hr hc hk ih => exact .decl ih hi hr hc hk
  | stmt _ hs hc hi hk ih =>
    exact .stmt ih hs hc (fun h => ⟨(hi h).1, (hi h).2.1, pointless_off _⟩) hk
  | label _ hkind hi hk hl ih => exact .label ih hkind hi hk hl
  | other _ hi ho hk ih => exact .other ih hi ho hk

theorem Records.unoptimised {e : Ctx × Node} (h : Records true e) : Records false e := by
  obtain ⟨c, n⟩ := e
  cases n with
  | decl d ks => exact h
  | stmt s ks => exact ⟨h.1, fun hi => ⟨(h.2 hi).1, (h.2 hi).2.1, pointless_off _⟩⟩
  | other o ks => exact h

/-- What is recorded with optimisation is recorded without. -/
theorem recorded_unoptimised (l : Lang) (root : Node) :
    (∀ a ∈ (visitTU l true root).arrays, a ∈ (visitTU l false root).arrays) ∧
    (∀ a ∈ (visitTU l true root).asserts, a ∈ (visitTU l false root).asserts) ∧
    ∀ a ∈ (visitTU l true root).args, a ∈ (visitTU l false root).args := by
  obtain ⟨evs, e1, e2, -⟩ := visitTU_logs l true root
  obtain ⟨evs', e1', e2', -⟩ := visitTU_logs l false root
  have hsub : ∀ e ∈ evs, e ∈ evs' := fun e he => (e2' e).mpr
    ⟨((e2 e).mp he).1.unoptimised, ((e2 e).mp he).2.unoptimised⟩
  obtain ⟨m1, m2, m3⟩ := mem_foldl l evs VState.start.recs
  rw [← e1] at m1 m2 m3
  refine ⟨fun a ha => ?_, fun a ha => ?_, fun a ha => ?_⟩
  · rcases m1 a ha with h | ⟨e, he, h⟩
    · cases h
    · obtain ⟨r, i1, -, -⟩ := foldl_of_mem l evs' (hsub e he) VState.start.recs
      rw [← e1'] at i1
      exact i1 a (h r)
  · rcases m2 a ha with h | ⟨e, he, h⟩
    · cases h
    · obtain ⟨r, -, i2, -⟩ := foldl_of_mem l evs' (hsub e he) VState.start.recs
      rw [← e1'] at i2
      exact i2 a (h r)
  · rcases m3 a ha with h | ⟨e, he, h⟩
    · cases h
    · obtain ⟨r, -, -, i3⟩ := foldl_of_mem l evs' (hsub e he) VState.start.recs
      rw [← e1'] at i3
      exact i3 a (h r)

/-- C79: constants that are rewritten with optimisation are rewritten without. -/
theorem C79_optimised (f : ParsedFile)
    (hsame : ∀ a a', Somewhere f.ast (UsesConstant a) → Somewhere f.ast (UsesConstant a') →
      a.addr = a'.addr → a = a') :
    ∀ r ∈ (analyse true f).consts, r ∈ (analyse false f).consts := by
  obtain ⟨h1, h2, h3⟩ := recorded_unoptimised f.lang f.ast
  intro r hr
  simp only [analyse, constRewrites, List.mem_append, List.mem_flatMap] at hr ⊢
  rcases hr with (⟨a, ha, hr⟩ | ⟨a, ha, hr⟩) | ⟨a, ha, hr⟩
  · exact .inl (.inl ⟨a, h1 a ha, hr⟩)
  · exact .inl (.inr ⟨a, h2 a ha, hr⟩)
  · refine .inr ?_
    have hm := mem_freshArgs ha
    obtain ⟨a', ha', he⟩ := (C39_once (visitTU f.lang false f.ast)).2 a (h3 a hm)
    have := hsame a' a ((visitTU_noted (notes_ast f.lang f.ast) false).2.2 a' (mem_freshArgs ha'))
      ((visitTU_noted (notes_ast f.lang f.ast) true).2.2 a hm) he
    subst this
    exact ⟨a', ha', hr⟩

namespace SampleAst

/-- `void f(){const int n=3;[]{int a[n];};}` -/
def arrayInLambda : ParsedFile where
  name := t!"a.cc"
  lang := Sample.cpp
  src := t!"void f(){const int n=3;[]{int a[n];};}"
  hasErrors := false
  ast := tu [func false 0 38 [block 8 38 [
    node .declStmt .plain 9 23
      [.decl ⟨.var ⟨19, false, [], [], false, false, false⟩, some ⟨9, 22⟩⟩
        [node (.expr { facts .other (some .int) false 21 with intVal := some 3 }) .plain 21 22 []]],
    node (.expr { facts (.lambda false) none false 23 with sideEffects := false }) .plain 23 36
      [func false 23 36 [block 25 36 [node .declStmt .plain 26 35
        [.decl ⟨.var ⟨30, true, [⟨7, some ⟨32, 33⟩, some ⟨64, false, 3⟩⟩], [], false, false, false⟩,
          some ⟨26, 34⟩⟩ []]]]]]]]

end SampleAst

/-- Not all are: in a lambda that is not called, the size of an array is left as it is, although the constant
that it is given by is mutated (the value of `n` is no constant any more then, so that the output does
not compile). -/
theorem C79_false_optimised :
    let f := SampleAst.arrayInLambda
    (analyse false f).consts = [⟨⟨32, 33⟩, 3⟩] ∧ (analyse true f).consts = [] ∧
    (analyse true f).tree.post.any (fun m => m.span == ⟨21, 22⟩) = true := by
  decide +kernel

/-- Beside C79: a template argument, an array size and a static assertion; the hypotheses hold for
all three. -/
example : let f := SampleAst.constants ⟨32, true, 7⟩
    WellFormed f.ast ∧
    (∃ p above n sp, Place f.ast p above n ∧ Considered f.lang true n above ∧ DeclInFile n ∧
      NeedsConstant f.lang ⟨1, some sp, some ⟨32, true, 7⟩⟩ n ∧
      ∀ a', Somewhere f.ast (UsesConstant a') → a'.addr = 1 → a' = ⟨1, some sp, some ⟨32, true, 7⟩⟩) ∧
    (∃ p above n sp, Place f.ast p above n ∧ Considered f.lang true n above ∧ DeclInFile n ∧
      Asserts ⟨3, some sp, none⟩ n) := by
  intro f
  have hcon : ∀ (i : Nat) (k : Node), f.ast.kids[i]? = some k →
      (∃ d ks, k = .decl d ks ∧ d.range.isSome = true) →
      Considered f.lang true k [(f.ast, i)] ∧ DeclInFile k := by
    rintro i k - ⟨d, ks, rfl, hd⟩
    refine ⟨⟨?_, ⟨?_, trivial⟩, fun _ => ⟨?_, trivial⟩⟩, ?_⟩
    · intro x hx
      simp only [List.mem_singleton] at hx
      subst hx
      simp [f, CompileTime, SampleAst.constants, SampleAst.tu, Decl.isTU]
    · rintro ⟨_, _, h, _⟩
      cases h
    · rintro ⟨-, _, _, _, h, _⟩
      cases h
    · intro d' ks' h
      cases h
      exact hd
  refine ⟨?_, ?_, ?_⟩
  · intro p above s ks hp
    exfalso
    have := (Everywhere.place (P := fun _ n => ∀ s ks, n ≠ .stmt s ks) (by
      simp [f, SampleAst.constants, SampleAst.tu, Everywhere, EverywhereL]) hp).2
    exact this s ks rfl
  · refine ⟨[0], [(f.ast, 0)], _, ⟨2, 4⟩, .kid .root rfl, (hcon 0 _ rfl ⟨_, _, rfl, rfl⟩).1,
      (hcon 0 _ rfl ⟨_, _, rfl, rfl⟩).2,
      .template rfl (List.mem_singleton.mpr rfl) (.type (x := .expr _) (by simp) .expr), ?_⟩
    rintro a' ⟨p, above, n, hp, hu⟩ ha
    have := (Everywhere.place (P := fun _ n => ∀ a' : ConstArg, UsesConstant a' n → a'.addr = 1 →
        a' = ⟨1, some ⟨2, 4⟩, some ⟨32, true, 7⟩⟩) (by
      simp only [f, SampleAst.constants, SampleAst.tu, Everywhere, EverywhereL]
      refine ⟨?_, ⟨?_, trivial⟩, ⟨?_, trivial⟩, ⟨?_, trivial⟩, trivial⟩
      all_goals
        intro a' h ha
        cases h with
        | field h1 h2 => simp at h1
        | var h1 h2 =>
          simp at h1
          try (subst h1; simp at h2; try (subst h2; simp at ha))
        | template h1 h2 h3 =>
          simp at h1
          try (
            subst h1; simp at h2
            try (
              subst h2
              cases h3 with
              | type h4 h5 =>
                simp at h4
                rcases h4 with rfl | rfl
                · cases h5
                · cases h5; rfl))) hp).2
    exact this a' hu ha
  · exact ⟨[2], [(f.ast, 2)], _, ⟨30, 36⟩, .kid .root rfl, (hcon 2 _ rfl ⟨_, _, rfl, rfl⟩).1,
      (hcon 2 _ rfl ⟨_, _, rfl, rfl⟩).2, _, _, rfl, rfl⟩

end Dredd
