/-
C88: arguments of builtin functions that must be constants are not mutated.
-/
import Verif.Spec.ConstArg
import Verif.Props.C40

namespace Dredd

theorem CallsFrameAddress.compileTime {n : Node} (h : CallsFrameAddress n) (l : Lang) (i : Nat) :
    CompileTime l (n, i) := by
  obtain ⟨a, adl, member, h⟩ := h
  cases n with
  | stmt s ks =>
    obtain ⟨kind, _, _, _, _, _, _, _, _⟩ := s
    cases kind with
    | expr e =>
      simp only [Node.cls?, Option.some.injEq] at h
      exact .inl ⟨e, rfl, .inr (.inr (.inr (.inl ⟨a, adl, member, h⟩)))⟩
    | _ => cases h
  | _ => cases h

/-- C88, the part that holds: if only `__builtin_frame_address` requires constants, no mutation is in an argument
that must be a constant, or is one.
Missing: other builtin functions, see `C88_false`. -/
theorem C88_partial (l : Lang) (opt : Bool) (root : Node) (p : List Nat) (m : Mutation)
    (above : List (Node × Nat)) (n : Node) (h : MutationAt l opt root p m) (hp : Place root p above n)
    (honly : ∀ q up k, Place root q up k → MustBeConst k → ∃ x, up.head? = some x ∧ CallsFrameAddress x.1) :
    ¬ MustBeConst n ∧ ∀ x ∈ above, ¬ MustBeConst x.1 := by
  obtain ⟨above', s, ks, h1, _, h3, _⟩ := C40_partial l opt root p m h
  obtain ⟨rfl, _⟩ := hp.unique h1 rfl
  refine ⟨fun hn => ?_, fun x hx hm => ?_⟩
  · obtain ⟨x, hx, hc⟩ := honly _ _ _ hp hn
    exact h3 x (List.mem_of_mem_head? hx) (hc.compileTime l _)
  · obtain ⟨pre, post, he⟩ := List.append_of_mem hx
    obtain ⟨q, hq⟩ := hp.ancestor pre x post he
    obtain ⟨y, hy, hc⟩ := honly _ _ _ hq hm
    refine h3 y ?_ (hc.compileTime l _)
    rw [he]
    exact List.mem_append_right _ (List.mem_cons_of_mem _ (List.mem_of_mem_head? hy))

namespace SampleAst

/-- `void *g(){return F(0 + 1); x++;}` for a builtin function that requires a constant; `a` is what is recorded if it is
`__builtin_frame_address`. -/
def addressOf (a : Option ConstArg) : Node :=
  tu [func false 0 60 [block 9 60 [node .other .plain 10 48
    [node (.expr (facts (.call a false false) none false 17)) .plain 17 48
      [node (.expr { facts (.cast true false) (some .uint) false 42 with mustBeConst := true }) .plain 42 47
        [bin .add .operand 42 47 (lit .lhs 42 43) (lit .rhs 46 47)]]],
    node (.expr (facts (.unary .postInc) (some .int) false 50)) .plain 50 53
      [node (.expr (facts .other (some .int) true 50)) .operand 50 51 []]]]]

end SampleAst

open SampleAst

/-- The hypotheses of `C88_partial` hold for a function that calls `__builtin_frame_address` and has a mutation. -/
example (a : ConstArg) (ha : a = ⟨0, some ⟨42, 47⟩, some ⟨32, false, 1⟩⟩) :
    (∃ p m above n, MutationAt Sample.cpp true (addressOf (some a)) p m ∧ Place (addressOf (some a)) p above n) ∧
    (∀ q up k, Place (addressOf (some a)) q up k → MustBeConst k →
      ∃ x, up.head? = some x ∧ CallsFrameAddress x.1) ∧ ∃ q up k, Place (addressOf (some a)) q up k ∧ MustBeConst k := by
  subst ha
  refine ⟨?_, ?_, ?_⟩
  · have h : ∃ x ∈ (visitTU Sample.cpp true (addressOf (some ⟨0, some ⟨42, 47⟩, some ⟨32, false, 1⟩⟩))).cur.post,
        x.1 = [0, 0, 1] := by decide +kernel
    obtain ⟨⟨p, m⟩, h1, h2⟩ := h
    simp only at h2
    subst h2
    exact ⟨_, m, _, _, h1, ancestors_place _ _ _ _ rfl⟩
  · intro q up k hq
    refine (Everywhere.place (P := fun up k => MustBeConst k →
      ∃ x, up.head? = some x ∧ CallsFrameAddress x.1) ?_ hq).2
    simp [addressOf, tu, func, block, node, bin, lit, facts, Everywhere, EverywhereL, MustBeConst, CallsFrameAddress,
      Node.cls?]
  · exact ⟨_, _, _, ancestors_place [0, 0, 0, 0, 0] _ _ _ rfl, _, _, _, rfl, rfl, rfl⟩

/-- C88 fails: the constant in `__builtin_return_address(0 + 1)` is mutated, in both languages, with and without
optimisation. -/
theorem C88_false (l : Lang) (hl : l = Sample.c ∨ l = Sample.cpp) (opt : Bool) : ∃ p m above n,
    MutationAt l opt (addressOf none) p m ∧ Place (addressOf none) p above n ∧ MustBeConst n := by
  have h : ∀ l ∈ [Sample.c, Sample.cpp], ∀ opt, ∃ x ∈ (visitTU l opt (addressOf none)).cur.post,
      x.1 = [0, 0, 0, 0, 0] := by decide +kernel
  obtain ⟨⟨p, m⟩, h1, h2⟩ := h l (by rcases hl with rfl | rfl <;> simp) opt
  simp only at h2
  subst h2
  exact ⟨_, m, _, _, h1, ancestors_place _ _ _ _ rfl, _, _, _, rfl, rfl, rfl⟩

end Dredd
