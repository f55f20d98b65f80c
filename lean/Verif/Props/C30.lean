/-
C30: the edits nest.
-/
import Verif.Proofs.Layout
import Verif.Proofs.Run
import Verif.Props.C23

namespace Dredd

/-! ### Constants may be rewritten in any order -/

mutual
theorem Lay.consts_range : (x : Lay) → (off : Nat) → x.Apart →
    (x.consts off).Pairwise (fun c d => c.span.b < d.span.b) ∧
      ∀ c ∈ x.consts off, off ≤ c.span.b ∧ c.span.b < off + x.src.length
  | .text _, _, _ => by simp [Lay.consts]
  | .const old _, off, h => by
    have h : old ≠ [] := h
    have := List.length_pos_iff.2 h
    simp [Lay.consts, Lay.src]
    omega
  | .expr _ body, off, h => Lay.constsL_range body off h.2.2
  | .pre s body, off, h => by
    have ih := Lay.constsL_range body (off + s.op.str.length) h.2
    refine ⟨ih.1, fun c hc => ?_⟩
    have := ih.2 c hc
    simp only [Lay.src, List.length_append]
    omega
  | .post s body, off, h => by
    have ih := Lay.constsL_range body off h.2
    refine ⟨ih.1, fun c hc => ?_⟩
    have := ih.2 c hc
    simp only [Lay.src, List.length_append]
    omega
  | .stmt _ body ext, off, h => by
    have ih := Lay.constsL_range body off h.2.2
    refine ⟨ih.1, fun c hc => ?_⟩
    have := ih.2 c hc
    simp only [Lay.src, List.length_append]
    omega
  | .bin s lhs g1 g2 rhs, off, h => by
    have il := Lay.constsL_range lhs off h.2.2.2.2.1
    have ir := Lay.constsL_range rhs
      (off + (Lay.srcL lhs).length + g1.length + s.op.str.length + g2.length) h.2.2.2.2.2
    simp only [Lay.consts, Lay.src, List.length_append, List.pairwise_append, List.mem_append]
    refine ⟨⟨il.1, ir.1, fun c hc d hd => ?_⟩, fun c hc => ?_⟩
    · have := il.2 c hc
      have := ir.2 d hd
      omega
    · rcases hc with hc | hc
      · have := il.2 c hc
        omega
      · have := ir.2 c hc
        omega

theorem Lay.constsL_range : (xs : List Lay) → (off : Nat) → Lay.ApartL xs →
    (Lay.constsL off xs).Pairwise (fun c d => c.span.b < d.span.b) ∧
      ∀ c ∈ Lay.constsL off xs, off ≤ c.span.b ∧ c.span.b < off + (Lay.srcL xs).length
  | [], _, _ => by simp [Lay.constsL]
  | x :: xs, off, h => by
    have il := Lay.consts_range x off h.1
    have ir := Lay.constsL_range xs (off + x.src.length) h.2
    simp only [Lay.constsL, Lay.srcL, List.length_append, List.pairwise_append, List.mem_append]
    refine ⟨⟨il.1, ir.1, fun c hc d hd => ?_⟩, fun c hc => ?_⟩
    · have := il.2 c hc
      have := ir.2 d hd
      omega
    · rcases hc with hc | hc
      · have := il.2 c hc
        omega
      · have := ir.2 c hc
        omega
end

theorem filter_le_one {α : Type} {r : α → α → Prop} (p : α → Bool) (xs : List α)
    (h : xs.Pairwise r) (hp : ∀ a b, p a → p b → ¬ r a b) : (xs.filter p).length ≤ 1 := by
  induction xs with
  | nil => simp
  | cons x xs ih =>
    have ⟨h1, h2⟩ := List.pairwise_cons.1 h
    cases hx : p x
    · simpa [hx] using ih h2
    · have : xs.filter p = [] := by
        rw [List.filter_eq_nil_iff]
        intro y hy hpy
        exact hp x y hx hpy (h1 y hy)
      simp [hx, this]

theorem perm_le_one {α : Type} {as bs : List α} (h : as.Perm bs) (hl : as.length ≤ 1) :
    as = bs := by
  match as, hl with
  | [], _ => exact (List.nil_perm.1 h).symm
  | [a], _ => exact (List.singleton_perm.1 h)

/-- If no two constants begin at the same place, the order of the replacements
does not matter. -/
theorem sameAt_consts {A : List Edit} {cs ds : List ConstRewrite} (h : cs.Perm ds)
    (hd : ds.Pairwise fun c d => c.span.b < d.span.b) (p : Nat) :
    SameAt (A ++ constEdits ds) (A ++ constEdits cs) p := by
  have hr : ∀ xs, replacements (constEdits xs) p
      = (xs.filter fun c => c.span.b == p).flatMap fun c => natDec c.value := by
    intro xs
    induction xs with
    | nil => rfl
    | cons x xs ih =>
      have : replacements (constEdits (x :: xs)) p
          = (if x.span.b = p then natDec x.value else []) ++ replacements (constEdits xs) p := by
        simp [replacements, constEdits, Edit.replaceAt]
      rw [this, ih]
      by_cases hx : x.span.b = p <;> simp [hx]
  constructor
  · simp [befores_append]
  · simp [afters_append]
  · rw [replacements_append, replacements_append, hr, hr,
      perm_le_one (h.symm.filter _) (filter_le_one _ _ hd fun a b ha hb => by
        simp only [beq_iff_eq] at ha hb
        omega)]
  · rw [removed_append, removed_append]
    congr 1
    rw [Bool.eq_iff_iff]
    simp only [removed, constEdits, List.any_map, List.any_eq_true, h.mem_iff]

theorem rewriteFrom_still (es : List Edit) (s : Text) (o : Nat)
    (h : ∀ p, o ≤ p → p < o + s.length → slot es p = [] ∧ removed es p = false)
    (he : slot es (o + s.length) = []) : rewriteFrom es o s = s := by
  induction s generalizing o with
  | nil => simpa [rewriteFrom] using he
  | cons c cs ih =>
    have h0 := h o (Nat.le_refl _) (by simp)
    simp only [rewriteFrom, h0.1, h0.2]
    rw [ih (o + 1) (fun p h1 h2 => h p (by omega) (by simp; omega)) (by
      rw [← he]; congr 1; simp; omega)]
    rfl

/-- The changes other than the insertion of prelude and definitions, for trees of pieces in which
no instrumented piece begins just where another one ends. -/
theorem others_out (o : Options) (first : Nat) (f : SourceFile) (ls : List Lay)
    (pts : List (Nat × Mutation)) (hpts : pts.map (·.2) = f.tree.post)
    (hnum : NumberedFrom f.lang o.optimise first pts)
    (hsrc : f.src = Lay.srcL ls) (hm : f.tree.post = Lay.mutsL ls)
    (hc : f.consts.Perm (Lay.constsL 0 ls))
    (hf : Lay.FitsL 0 ls) (hs : Lay.spaced ls) (ha : Lay.ApartL ls) (others : List Edit)
    (ho : others = pts.flatMap (fun p => (p.2.apply f.lang o first p.1).edits) ++
      f.consts.map (fun c => .replace c.span.b (c.span.e - c.span.b) (natDec c.value))) :
    rewrite f.src others = Lay.outL f.lang o 0 ls ∧
    ∀ t rest, ls = .text t :: rest →
      rewrite (f.src.take t.length) (others.filter fun e => e.off < t.length) = t := by
  rw [numberedFrom_iff, hpts, hm] at hnum
  have hpt : pts.flatMap (fun p => (p.2.apply f.lang o first p.1).edits)
      = editsFrom f.lang o first first (Lay.mutsL ls) := by rw [hnum, ← editsFrom_numbered]
  rw [hpt] at ho
  have same : ∀ p, SameAt (editsFrom f.lang o first first (Lay.mutsL ls) ++
      constEdits (Lay.constsL 0 ls)) others p := by
    intro p
    rw [ho]
    exact sameAt_consts (A := editsFrom f.lang o first first (Lay.mutsL ls)) hc
        (Lay.constsL_range ls 0 ha).1 p
  constructor
  · have t := (Lay.turnsL f.lang o first ls 0 0 hf hs ha).congr (B := others) same
    rw [hsrc]
    exact t.eq
  · rintro t rest rfl
    have hs' : Lay.spaced rest := by
      cases rest with
      | nil => rfl
      | cons y ys => simp only [Lay.spaced, Bool.and_eq_true] at hs; exact hs.2
    have w := (Lay.turnsL f.lang o first rest (0 + t.length) 0 hf.2 hs' ha.2).within.congr
      (B := others) (by simpa [Lay.editsL, Lay.mutsL, Lay.muts, Lay.constsL, Lay.consts,
        Lay.src] using same)
    have htake : f.src.take t.length = t := by simp [hsrc, Lay.srcL, Lay.src]
    rw [htake]
    refine rewriteFrom_still _ _ _ (fun p _ h => ?_) (by rw [Nat.zero_add]; exact slot_filter_end _ _)
    have hp : p < t.length := by omega
    rw [slot_filter _ _ _ hp, removed_filter _ _ _ hp]
    refine ⟨?_, w.rem p (by omega)⟩
    simp [slot, w.bef p (by omega), w.aft p (by omega), w.rep p (by omega)]

/-- C30, for trees of pieces in which no instrumented piece begins just where
another one ends: a mutated file is the text obtained by wrapping every
instrumented piece around its instrumented parts, into which the prelude and the
definitions are inserted at the prelude location.  If the file begins with text that is
not mutated, up to that location, this text is kept.

The full property has no such restriction; `C30_false` shows that it does not hold
then. -/
theorem C30_partial (o : Options) (req : Bool) (first : Nat) (f : SourceFile) (out : Text)
    (ls : List Lay)
    (h : (handleTU o req first f).output = some out)
    (hsrc : f.src = Lay.srcL ls) (hm : f.tree.post = Lay.mutsL ls)
    (hc : f.consts.Perm (Lay.constsL 0 ls))
    (hf : Lay.FitsL 0 ls) (hs : Lay.spaced ls) (ha : Lay.ApartL ls)
    (hloc : f.preludeOff.getD 0 ≤ f.src.length) :
    ∃ front back ds, Lay.outL f.lang o 0 ls = front ++ back ∧
      out = front ++ (preludeText f.lang o first ((handleTU o req first f).nextId - first) ++ ds)
        ++ back ∧
      (f.preludeOff.getD 0 = 0 → front = []) ∧
      ∀ t rest, ls = .text t :: rest → f.preludeOff.getD 0 = t.length → front = t := by
  obtain ⟨pts, ds, others, back, hpts, hnum, -, -, ho, e1, e2⟩ := C23_output o req first f out h hloc
  obtain ⟨h1, h2⟩ := others_out o first f ls pts hpts hnum hsrc hm hc hf hs ha others ho
  refine ⟨_, back, ds.reverse.flatten, h1.symm.trans e1, e2, fun h0 => ?_, fun t rest ht h0 => ?_⟩
  · rw [h0]
    have : others.filter (fun e => decide (e.off < 0)) = [] := by simp
    rw [this]
    rfl
  · rw [h0]
    exact h2 t rest ht

namespace Sample

/-- `{a();b();}`, two statements without white space between them. -/
def touching : SourceFile :=
  { name := t!"a.cc", lang := cpp, src := t!"{a();b();}", hasErrors := false
    tree := .node []
      [.node [.stmt ⟨⟨1, 4⟩, 5, false, true, false, info, []⟩] [],
       .node [.stmt ⟨⟨5, 8⟩, 9, false, true, false, info, []⟩] []]
    consts := [], preludeOff := none }

def touchingLay : List Lay :=
  [.text t!"{", .stmt ⟨⟨1, 4⟩, 5, false, true, false, info, []⟩ [.text t!"a()"] t!";",
   .stmt ⟨⟨5, 8⟩, 9, false, true, false, info, []⟩ [.text t!"b()"] t!";", .text t!"}"]

/-- `{a(); x=-b;}` with mutations of both statements, of the assignment, of the
minus, of `-b` and of `b`. -/
def nested : SourceFile :=
  { name := t!"a.cc", lang := cpp, src := t!"{a(); x=-b;}", hasErrors := false
    tree := .node []
      [.node [.stmt ⟨⟨1, 4⟩, 5, false, true, false, info, []⟩] [],
       .node [.stmt ⟨⟨6, 10⟩, 11, false, true, false, info, []⟩]
        [.node [.bin ⟨.assign, intVar, intVal, .int, some 7, ⟨6, 10⟩, ⟨6, 7⟩, ⟨8, 10⟩, info, info, info,
            []⟩]
          [.node [.un ⟨.minus, intVal, intVal, some 8, ⟨8, 10⟩, info, info, []⟩,
              .expr ⟨intVal, none, false, true, none, false, ⟨8, 10⟩, info, []⟩]
            [.node [.expr ⟨intVal, none, false, true, none, false, ⟨9, 10⟩, info, []⟩] []]]]]
    consts := [], preludeOff := none }

def nestedLay : List Lay :=
  [.text t!"{", .stmt ⟨⟨1, 4⟩, 5, false, true, false, info, []⟩ [.text t!"a()"] t!";", .text t!" ",
   .stmt ⟨⟨6, 10⟩, 11, false, true, false, info, []⟩
    [.bin ⟨.assign, intVar, intVal, .int, some 7, ⟨6, 10⟩, ⟨6, 7⟩, ⟨8, 10⟩, info, info, info, []⟩
      [.text t!"x"] [] []
      [.expr ⟨intVal, none, false, true, none, false, ⟨8, 10⟩, info, []⟩
        [.pre ⟨.minus, intVal, intVal, some 8, ⟨8, 10⟩, info, info, []⟩
          [.expr ⟨intVal, none, false, true, none, false, ⟨9, 10⟩, info, []⟩ [.text t!"b"]]]]]
    t!";",
   .text t!"}"]

end Sample

/-- The hypotheses of `C30_partial` hold for `{a(); x=-b;}`. -/
example :
    (handleTU Sample.opts true 5 Sample.nested).output.isSome ∧
    Sample.nested.src = Lay.srcL Sample.nestedLay ∧
    Sample.nested.tree.post = Lay.mutsL Sample.nestedLay ∧
    Sample.nested.consts.Perm (Lay.constsL 0 Sample.nestedLay) ∧
    Lay.FitsL 0 Sample.nestedLay ∧ Lay.spaced Sample.nestedLay ∧ Lay.ApartL Sample.nestedLay ∧
    Lay.outL Sample.cpp Sample.opts 0 Sample.nestedLay =
      t!"{if (!__dredd_enabled_mutation(0)) { a(); } " ++
      t!"if (!__dredd_enabled_mutation(25)) { " ++
      t!"__dredd_replace_binary_operator_Assign_arg1_int_arg2_int(x," ++
      t!"__dredd_replace_expr_int(__dredd_replace_unary_operator_Minus_int(" ++
      t!"__dredd_replace_expr_int(b, 1), 7), 9), 15); }}" := by
  refine ⟨by decide, by decide, by decide, .refl _, ?_, by decide, ?_, ?_⟩
  · simp [Sample.nestedLay, Lay.FitsL, Lay.Fits, Lay.srcL, Lay.src]
    decide
  · simp [Sample.nestedLay, Lay.ApartL, Lay.Apart, Lay.spaced]
  · decide +kernel

/-- C30 fails for statements without white space between them: in `{a();b();}`
the text that opens the second `if` comes in front of the brace that closes the first
one.  The mutant that removes `b();` does nothing, and the mutant that removes
`a();` removes both. -/
theorem C30_false :
    ∃ (o : Options) (f : SourceFile) (ls : List Lay) (out : Text),
      (handleTU o true 0 f).output = some out ∧ f.src = Lay.srcL ls ∧
      f.tree.post = Lay.mutsL ls ∧ f.consts = Lay.constsL 0 ls ∧ Lay.FitsL 0 ls ∧
      Lay.ApartL ls ∧ f.preludeOff = none ∧
      Lay.outL f.lang o 0 ls =
        t!"{if (!__dredd_enabled_mutation(0)) { a(); }if (!__dredd_enabled_mutation(1)) { b(); }}" ∧
      (∃ x, out = x ++
        t!"{if (!__dredd_enabled_mutation(0)) { a();if (!__dredd_enabled_mutation(1)) {  }b(); }}") ∧
      ¬ ∃ x, out = x ++ Lay.outL f.lang o 0 ls := by
  have hr : Lay.outL Sample.cpp Sample.opts 0 Sample.touchingLay =
      t!"{if (!__dredd_enabled_mutation(0)) { a(); }if (!__dredd_enabled_mutation(1)) { b(); }}" := by
    decide +kernel
  have ho : ∃ out, (handleTU Sample.opts true 0 Sample.touching).output = some out ∧
      ∃ x, out = x ++
        t!"{if (!__dredd_enabled_mutation(0)) { a();if (!__dredd_enabled_mutation(1)) {  }b(); }}" := by
    refine ⟨_, rfl, preludeText Sample.cpp Sample.opts 0 2, ?_⟩
    decide +kernel
  obtain ⟨out, h1, x, hx⟩ := ho
  refine ⟨Sample.opts, Sample.touching, Sample.touchingLay, out, h1, by decide, by decide, rfl, ?_,
    ?_, rfl, hr, ⟨x, hx⟩, ?_⟩
  · simp [Sample.touchingLay, Lay.FitsL, Lay.Fits, Lay.srcL, Lay.src]
  · simp [Sample.touchingLay, Lay.ApartL, Lay.Apart, Lay.spaced]
  · rintro ⟨y, hy⟩
    have hr' : Lay.outL Sample.touching.lang Sample.opts 0 Sample.touchingLay = _ := hr
    rw [hr', hx] at hy
    have := (List.append_inj' hy (by decide)).2
    revert this
    decide

end Dredd
