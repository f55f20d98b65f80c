/-
C40: where mutants are placed.
-/
import Verif.Proofs.Places
import Verif.Spec.SampleAst

namespace Dredd

/-- The mutation of a syntax tree at a place. -/
def MutationAt (l : Lang) (opt : Bool) (root : Node) (p : List Nat) (m : Mutation) : Prop :=
  (p, m) ∈ (visitTU l opt root).cur.post

theorem Place.ancestor {root p above n} (h : Place root p above n) :
    ∀ pre x post, above = pre ++ x :: post → ∃ q, Place root q post x.1 := by
  induction h with
  | root => intro pre x post he; simp at he
  | @kid p above n i k hp _ ih =>
    intro pre x post he
    cases pre with
    | nil =>
      simp at he
      obtain ⟨rfl, rfl⟩ := he
      exact ⟨p, hp⟩
    | cons y pre =>
      simp at he
      exact ih pre x post he.2

/-- What C40 asks for in full, for the mutation `m` at place `p`. -/
def WellPlaced (l : Lang) (root : Node) (p : List Nat) (m : Mutation) : Prop :=
  ∃ above s ks, Place root p above (.stmt s ks) ∧ s.range = some m.span ∧ InFunction above ∧
    (∀ x ∈ above, ¬ CompileTime l x ∧ ¬ OtherCompileTime x) ∧
    NoPair CompileTimeChild (.stmt s ks) above ∧
    (m.isRemoval = false → ∃ e, s.kind = .expr e ∧ e.ty.isSome = true)

/-- C40, the part that holds: every mutation belongs to a statement or expression
of the tree, which has a range in the main file; it is not below a constant
expression, a `noexcept`, a user-defined literal, a case label, a `constexpr`
function, a variable that is `constexpr` or must be initialised at compile time,
a static assertion, a parameter, a template argument, a lambda capture, an array
type (in C: other than of variable size), nor is it or anything above it an
expression that is the operand of `sizeof` or `alignof`, the condition of an `if
constexpr`, the size of a `new`.  Mutations of expressions belong to an
expression of supported type in a function.  Removed statements are items of a
compound statement, possibly after `case` and `default` labels.

Missing from C40: what is in `OtherCompileTime`, and that removed statements are
in a function; see `C40_false`. -/
theorem C40_partial (l : Lang) (opt : Bool) (root : Node) (p : List Nat) (m : Mutation)
    (h : MutationAt l opt root p m) :
    ∃ above s ks, Place root p above (.stmt s ks) ∧ s.range = some m.span ∧
      (∀ x ∈ above, ¬ CompileTime l x) ∧ NoPair CompileTimeChild (.stmt s ks) above ∧
      (m.isRemoval = false →
        InFunction above ∧ ∃ e, s.kind = .expr e ∧ e.ty.isSome = true ∧
          ¬ CompileTime l (.stmt s ks, 0)) ∧
      (m.isRemoval = true → ItemOfBlock above) := by
  obtain ⟨c, above, s, ks, hf, hp, hpair, ho⟩ := ((visitTU_good l opt root).1 _ h).fine
  simp only at hp ho
  subst hp
  rcases ho with ⟨hs, e, locs, hk, hm⟩ | ⟨hi, hm⟩
  · obtain ⟨sp, t, _, _, hin, _, hr, _, ht, _, _, hv⟩ := mem_visitExpr hm
    rw [hv] at hm
    have hspan : m.span = sp ∧ m.isRemoval = false := by
      rcases List.mem_append.mp hm with hm | hm
      · rcases mem_handleOp hm with ⟨op, hc, hm⟩ | ⟨op, hc, hm⟩
        · obtain ⟨_, _, _, _, _, _, _, _, _, _, h2⟩ := mem_handleUnary hm
          rw [h2]; exact ⟨rfl, rfl⟩
        · obtain ⟨_, _, _, _, _, _, _, _, _, _, _, _, _, _, _, _, _, h2⟩ := mem_handleBinary hm
          rw [h2]; exact ⟨rfl, rfl⟩
      · obtain ⟨_, _, _, _, _, _, _, _, h2⟩ := mem_handleExpr hm
        rw [h2]; exact ⟨rfl, rfl⟩
    refine ⟨above, s, ks, hf.place, by rw [hr, hspan.1], hf.outside, hpair, ?_, ?_⟩
    · intro _
      exact ⟨hf.encl hin, e, hk, by rw [ht]; rfl,
        skip_not_compileTime hs fun h => by rw [hk] at h; cases h⟩
    · intro h
      rw [hspan.2] at h
      cases h
  · obtain ⟨sp, hr, rfl⟩ := removal_span hm
    refine ⟨above, s, ks, hf.place, hr, hf.outside, hpair, nofun, fun _ => ?_⟩
    rw [hf.infos] at hi
    exact itemOfBlock above hi

/-- C40 in full for a program in which every compound statement is in a function
(as in C, and in C++ if there are no lambdas outside functions) and which has
nothing of what is in `OtherCompileTime`. -/
theorem C40_plain_partial (l : Lang) (opt : Bool) (root : Node) (p : List Nat) (m : Mutation)
    (h : MutationAt l opt root p m)
    (hbody : ∀ q above s ks, Place root q above (.stmt s ks) → s.kind = .compound → InFunction above)
    (hother : ∀ q above n, Place root q above n → ∀ i, ¬ OtherCompileTime (n, i)) :
    WellPlaced l root p m := by
  obtain ⟨above, s, ks, h1, h2, h3, h4, h5, h6⟩ := C40_partial l opt root p m h
  refine ⟨above, s, ks, h1, h2, ?_, ?_, h4, ?_⟩
  · cases hm : m.isRemoval
    · exact (h5 hm).1
    · obtain ⟨labels, s', ks', i, post, rfl, hk, hl⟩ := h6 hm
      obtain ⟨q, hq⟩ := h1.ancestor labels _ post rfl
      have hfun : InFunction ((.stmt s' ks', i) :: post) :=
        (hbody q post s' ks' hq hk).cons (by intro _ _ he; cases he)
      clear h1 h3 h4 h5 h6
      induction labels with
      | nil => exact hfun
      | cons x labels ih =>
        refine (ih (fun y hy => hl y (List.mem_cons_of_mem _ hy))).cons ?_
        intro d ks he
        obtain ⟨_, _, he', _⟩ := hl x List.mem_cons_self
        rw [he] at he'
        cases he'
  · intro x hx
    refine ⟨h3 x hx, ?_⟩
    obtain ⟨pre, post, he⟩ := List.append_of_mem hx
    obtain ⟨q, hq⟩ := h1.ancestor pre x post he
    exact hother q post x.1 hq x.2
  · intro hm
    obtain ⟨_, e, he, ht, _⟩ := h5 hm
    exact ⟨e, he, ht⟩

/-- The ancestors of a place, computed. -/
def ancestors : Node → List Nat → Option (List (Node × Nat) × Node)
  | n, [] => some ([], n)
  | n, i :: p =>
    match n.kids[i]? with
    | none => none
    | some k => (ancestors k p).map fun (a, m) => (a ++ [(n, i)], m)

theorem Place.snoc {root n k : Node} {i : Nat} (hk : n.kids[i]? = some k) :
    ∀ {p a m}, Place k p a m → root = n → Place root (i :: p) (a ++ [(n, i)]) m := by
  intro p a m h hr
  subst hr
  induction h with
  | root => exact .kid (p := []) .root hk
  | kid _ h' ih => exact .kid ih h'

theorem ancestors_place : (p : List Nat) → (root : Node) → (a : List (Node × Nat)) → (n : Node) →
    ancestors root p = some (a, n) → Place root p a n
  | [], root, a, n, h => by
    simp [ancestors] at h
    obtain ⟨rfl, rfl⟩ := h
    exact .root
  | i :: p, root, a, n, h => by
    simp only [ancestors] at h
    split at h
    · cases h
    · rename_i k hk
      cases hm : ancestors k p with
      | none => rw [hm] at h; cases h
      | some x =>
        obtain ⟨a', m⟩ := x
        rw [hm] at h
        simp at h
        obtain ⟨rfl, rfl⟩ := h
        exact Place.snoc hk (ancestors_place p k a' m hm) rfl

theorem not_wellPlaced {l : Lang} {root : Node} {p : List Nat} {m : Mutation}
    {a : List (Node × Nat)} {n : Node} (h : ancestors root p = some (a, n))
    (hbad : (∃ x ∈ a, OtherCompileTime x) ∨ ¬ InFunction a) : ¬ WellPlaced l root p m := by
  rintro ⟨above, s, ks, h1, _, h3, h4, _⟩
  obtain ⟨rfl, _⟩ := h1.unique (ancestors_place p root a n h) rfl
  rcases hbad with ⟨x, hx, hb⟩ | hb
  · exact (h4 x hx).2 hb
  · exact hb h3

open SampleAst in
/-- C40 does not hold in full: the statement in the lambda of
`int x = [](){f(); return 1;}();`, which is not in a function, is removed. -/
theorem C40_false_removal : ∃ p m, MutationAt Sample.cpp true globalLambda p m ∧
    m.isRemoval = true ∧ ¬ WellPlaced Sample.cpp globalLambda p m := by
  have h : ∃ x ∈ (visitTU Sample.cpp true globalLambda).cur.post,
      x.1 = [0, 0, 0, 0, 0] ∧ x.2.isRemoval = true := by decide +kernel
  obtain ⟨⟨p, m⟩, h1, h2, h3⟩ := h
  simp only at h2
  subst h2
  refine ⟨_, m, h1, h3, not_wellPlaced (rfl : ancestors globalLambda _ = some (_, _)) (.inr ?_)⟩
  rintro ⟨pre, d, ks, i, post, he, ⟨ce, ph, hd⟩, _⟩
  have hmem : (Node.decl d ks, i) ∈ pre ++ (Node.decl d ks, i) :: post := by simp
  rw [← he] at hmem
  simp only [List.nil_append, List.cons_append, List.mem_cons, Prod.mk.injEq, List.not_mem_nil,
    or_false] at hmem
  rcases hmem with ⟨h, _⟩ | ⟨h, _⟩ | ⟨h, _⟩ | ⟨h, _⟩ | ⟨h, _⟩ <;> cases h <;> cases hd

open SampleAst in
/-- C40 does not hold in full: the size in `sizeof(int[n + 1])` is mutated in
C. -/
theorem C40_false_sizeof : ∃ p m, MutationAt Sample.c true sizeofVla p m ∧
    ¬ WellPlaced Sample.c sizeofVla p m := by
  have h : ∃ x ∈ (visitTU Sample.c true sizeofVla).cur.post,
      x.1 = [0, 0, 0, 0, 0, 0] ∧ x.2.isRemoval = false := by decide +kernel
  obtain ⟨⟨p, m⟩, h1, h2, h3⟩ := h
  simp only at h2
  subst h2
  refine ⟨_, m, h1, not_wellPlaced (rfl : ancestors sizeofVla _ = some (_, _)) (.inl ?_)⟩
  exact ⟨_, .tail _ (.head _), _, rfl, .inl ⟨_, rfl⟩⟩

open SampleAst in
/-- C40 does not hold in full: the operand of `__alignof(n + 1)` is mutated. -/
theorem C40_false_alignof : ∃ p m, MutationAt Sample.cpp true alignofExpr p m ∧
    ¬ WellPlaced Sample.cpp alignofExpr p m := by
  have h : ∃ x ∈ (visitTU Sample.cpp true alignofExpr).cur.post,
      x.1 = [0, 0, 0, 0, 0] ∧ x.2.isRemoval = false := by decide +kernel
  obtain ⟨⟨p, m⟩, h1, h2, h3⟩ := h
  simp only at h2
  subst h2
  refine ⟨_, m, h1, not_wellPlaced (rfl : ancestors alignofExpr _ = some (_, _)) (.inl ?_)⟩
  exact ⟨_, .head _, _, rfl, .inl ⟨_, rfl⟩⟩

open SampleAst in
/-- C40 does not hold in full: the body of a lambda that is `constexpr` is
mutated. -/
theorem C40_false_lambda : ∃ p m, MutationAt Sample.cpp true constexprLambda p m ∧
    ¬ WellPlaced Sample.cpp constexprLambda p m := by
  have h : ∃ x ∈ (visitTU Sample.cpp true constexprLambda).cur.post,
      x.1 = [0, 0, 0, 0, 0, 0, 0, 0] ∧ x.2.isRemoval = false := by decide +kernel
  obtain ⟨⟨p, m⟩, h1, h2, h3⟩ := h
  simp only at h2
  subst h2
  refine ⟨_, m, h1, not_wellPlaced (rfl : ancestors constexprLambda _ = some (_, _)) (.inl ?_)⟩
  exact ⟨_, .tail _ (.tail _ (.head _)), _, rfl, .inr rfl⟩

open SampleAst in
/-- C40 does not hold in full: in C the size of an array of variable size is
mutated (which does compile). -/
theorem C40_false_vla : ∃ p m, MutationAt Sample.c true vla p m ∧
    ¬ WellPlaced Sample.c vla p m := by
  have h : ∃ x ∈ (visitTU Sample.c true vla).cur.post,
      x.1 = [0, 0, 0, 0, 0, 0] ∧ x.2.isRemoval = false := by decide +kernel
  obtain ⟨⟨p, m⟩, h1, h2, h3⟩ := h
  simp only at h2
  subst h2
  refine ⟨_, m, h1, not_wellPlaced (rfl : ancestors vla _ = some (_, _)) (.inl ?_)⟩
  exact ⟨_, .head _, rfl⟩

open SampleAst in
/-- In the sample with a `constexpr` function and an ordinary function with the
same body there are seven mutations, all in the second function. -/
example : (visitTU Sample.cpp true two).cur.post.length = 7 ∧
    ∀ x ∈ (visitTU Sample.cpp true two).cur.post, x.1.head? = some 1 := by decide +kernel

mutual
/-- Something holds of a node, and of everything below it. -/
def Everywhere (P : List (Node × Nat) → Node → Prop) (above : List (Node × Nat)) : Node → Prop
  | .decl d ks => P above (.decl d ks) ∧ EverywhereL P above (.decl d ks) 0 ks
  | .stmt s ks => P above (.stmt s ks) ∧ EverywhereL P above (.stmt s ks) 0 ks
  | .other k ks => P above (.other k ks) ∧ EverywhereL P above (.other k ks) 0 ks
def EverywhereL (P : List (Node × Nat) → Node → Prop) (above : List (Node × Nat)) (n : Node) :
    Nat → List Node → Prop
  | _, [] => True
  | i, k :: ks => Everywhere P ((n, i) :: above) k ∧ EverywhereL P above n (i + 1) ks
end

theorem EverywhereL.get {P above n} : ∀ {ks i}, EverywhereL P above n i ks → ∀ {j k},
    ks[j]? = some k → Everywhere P ((n, i + j) :: above) k
  | [], _, _, _, _, h => by simp at h
  | k :: ks, i, hw, 0, _, h => by
    simp at h
    subst h
    exact hw.1
  | k :: ks, i, hw, j + 1, _, h => by
    have := EverywhereL.get hw.2 (j := j) (by simpa using h)
    rwa [show i + 1 + j = i + (j + 1) by omega] at this

theorem Everywhere.place {P root} (h : Everywhere P [] root) {p a n} (hp : Place root p a n) :
    Everywhere P a n ∧ P a n := by
  have key : Everywhere P a n := by
    induction hp with
    | root => exact h
    | @kid p a n i k _ hk ih =>
      have : EverywhereL P a n 0 n.kids := by
        cases n <;> exact ih.2
      simpa using EverywhereL.get this hk
  exact ⟨key, by cases n <;> exact key.1⟩

open SampleAst in
/-- The hypotheses of `C40_plain_partial` hold for that sample. -/
example (p : List Nat) (m : Mutation) (h : MutationAt Sample.cpp true two p m) :
    WellPlaced Sample.cpp two p m := by
  refine C40_plain_partial Sample.cpp true two p m h ?_ ?_
  · intro q above s ks hp
    refine (Everywhere.place (P := fun above n => ∀ s ks, n = .stmt s ks → s.kind = .compound →
      InFunction above) ?_ hp).2 s ks rfl
    simp only [two, tu, func, block, node, bin, SampleAst.read, facts, Everywhere, EverywhereL, and_true]
    refine ⟨by simp, ⟨by simp, ?_, ?_⟩, ⟨by simp, ?_, ?_⟩⟩
    · exact fun _ _ _ _ => .of_func ⟨_, _, rfl⟩
    · simp
    · exact fun _ _ _ _ => .of_func ⟨_, _, rfl⟩
    · simp
  · intro q above n hp
    refine (Everywhere.place (P := fun above n => ∀ i, ¬ OtherCompileTime (n, i)) ?_ hp).2
    simp [two, tu, func, block, node, bin, SampleAst.read, facts, Everywhere, EverywhereL, OtherCompileTime]

end Dredd
