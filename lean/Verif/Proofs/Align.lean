/-
Comparison of original and rewritten text.
-/
import Verif.Spec.Align
import Verif.Proofs.Rewrite
import Verif.Proofs.Run

namespace Dredd

@[simp] theorem Item.oldText_append (a b : List Item) :
    Item.oldText (a ++ b) = Item.oldText a ++ Item.oldText b := by
  induction a with
  | nil => rfl
  | cons x a ih => cases x <;> simp [Item.oldText, ih]

@[simp] theorem Item.newText_append (a b : List Item) :
    Item.newText (a ++ b) = Item.newText a ++ Item.newText b := by
  induction a with
  | nil => rfl
  | cons x a ih => cases x <;> simp [Item.newText, ih]

theorem Item.gone_append (o : Nat) (a b : List Item) :
    Item.gone o (a ++ b) = Item.gone o a ++ Item.gone (o + (Item.oldText a).length) b := by
  induction a generalizing o with
  | nil => rfl
  | cons x a ih =>
    cases x <;> simp [Item.oldText, Item.gone, ih, Nat.add_assoc, Nat.add_comm, Nat.add_left_comm]

/-- The comparison for a list of edits, without the text inserted at the end. -/
def compare (es : List Edit) (o : Nat) : Text → List Item
  | [] => []
  | c :: cs =>
    .ins (slot es o) :: (if removed es o then .del c else .keep c) :: compare es (o + 1) cs

theorem compare_old (es : List Edit) (o : Nat) (s : Text) : Item.oldText (compare es o s) = s := by
  induction s generalizing o with
  | nil => rfl
  | cons c cs ih =>
    simp only [compare]
    cases removed es o <;> simp [Item.oldText, ih]

theorem compare_new (es : List Edit) (o : Nat) (s : Text) :
    Item.newText (compare es o s) = rewriteFront es o s := by
  induction s generalizing o with
  | nil => rfl
  | cons c cs ih =>
    simp only [compare, rewriteFront]
    cases removed es o <;> simp [Item.newText, ih]

theorem compare_gone (es : List Edit) (o : Nat) (s : Text) (p : Nat) (c : Char) :
    (p, c) ∈ Item.gone o (compare es o s) ↔ o ≤ p ∧ s[p - o]? = some c ∧ removed es p = true := by
  induction s generalizing o with
  | nil => simp [compare, Item.gone]
  | cons d cs ih =>
    have hstep : (d :: cs)[p - o]? = some c ∧ o ≤ p ↔
        (p = o ∧ c = d) ∨ (o + 1 ≤ p ∧ cs[p - (o + 1)]? = some c) := by
      rcases Nat.lt_trichotomy p o with h | h | h
      · constructor
        · rintro ⟨-, h'⟩; omega
        · rintro (⟨h', -⟩ | ⟨h', -⟩) <;> omega
      · subst h
        simp
        constructor
        · exact fun h => .inl h.symm
        · rintro (h | ⟨h, -⟩)
          · exact h.symm
          · omega
      · rw [show p - o = (p - (o + 1)) + 1 by omega]
        simp
        constructor
        · rintro ⟨h1, -⟩; exact .inr ⟨by omega, h1⟩
        · rintro (⟨h1, -⟩ | ⟨-, h1⟩)
          · omega
          · exact ⟨h1, by omega⟩
    simp only [compare]
    cases hr : removed es o
    · simp only [Bool.false_eq_true, if_false, Item.gone, ih]
      constructor
      · rintro ⟨h1, h2, h3⟩
        have := hstep.2 (.inr ⟨h1, h2⟩)
        exact ⟨this.2, this.1, h3⟩
      · rintro ⟨h1, h2, h3⟩
        rcases hstep.1 ⟨h2, h1⟩ with ⟨rfl, -⟩ | h
        · rw [hr] at h3; cases h3
        · exact ⟨h.1, h.2, h3⟩
    · simp only [if_true, Item.gone, List.mem_cons, ih, Prod.mk.injEq]
      constructor
      · rintro (⟨rfl, rfl⟩ | ⟨h1, h2, h3⟩)
        · exact ⟨Nat.le_refl _, by simp, hr⟩
        · have := hstep.2 (.inr ⟨h1, h2⟩)
          exact ⟨this.2, this.1, h3⟩
      · rintro ⟨h1, h2, h3⟩
        rcases hstep.1 ⟨h2, h1⟩ with h | h
        · exact .inl h
        · exact .inr ⟨h.1, h.2, h3⟩

theorem removed_flatMap {α : Type} (xs : List α) (g : α → List Edit) (p : Nat) :
    removed (xs.flatMap g) p = true ↔ ∃ x ∈ xs, removed (g x) p = true := by
  simp only [removed, List.any_eq_true, List.mem_flatMap]
  constructor
  · rintro ⟨e, ⟨x, hx, he⟩, h⟩; exact ⟨x, hx, e, he, h⟩
  · rintro ⟨x, hx, e, he, h⟩; exact ⟨e, ⟨x, hx, he⟩, h⟩

/-- What the edits of a mutation remove is its operator symbol. -/
theorem Mutation.removed_iff (l : Lang) (o : Options) (first id : Nat) (m : Mutation) (p : Nat) :
    removed (m.apply l o first id).edits p = true ↔ ∃ sp, m.symbol l = some sp ∧ sp.has p := by
  cases m with
  | bin s =>
    simp only [Mutation.apply, BinSite.apply, Mutation.symbol]
    by_cases hc : (!l.cpp && s.op.isLogical) = true
    · rw [if_pos hc, if_pos hc]
      unfold BinSite.applyCLogical wrapCall
      dsimp only
      cases o.track <;> simp [removed, Edit.removesAt]
    · rw [if_neg hc, if_neg hc]
      cases h : s.opOff <;>
        simp [BinSite.replaceOperator, replaceSymbol, h, removed, Edit.removesAt, Span.has]
  | un s =>
    cases h : s.opOff <;>
      simp [Mutation.apply, UnSite.apply, Mutation.symbol, UnSite.edits, replaceSymbol, h, removed,
        Edit.removesAt, Span.has]
  | expr s => simp [Mutation.apply, ExprSite.apply, Mutation.symbol, ExprSite.edits, removed,
      Edit.removesAt]
  | stmt s =>
    simp only [Mutation.apply, StmtSite.apply, Mutation.symbol, StmtSite.edits]
    split <;> simp [removed, Edit.removesAt]

/-- What all edits of a file remove. -/
theorem removed_fileEdits (o : Options) (first : Nat) (f : SourceFile) (p : Nat) :
    removed (fileEdits o first f) p = true ↔
      (∃ m ∈ f.tree.post, ∃ sp, m.symbol f.lang = some sp ∧ sp.has p) ∨
      ∃ c ∈ f.consts, c.span.has p := by
  simp only [fileEdits, finishEdits, removed_append, Bool.or_eq_true]
  have h3 : ∀ loc (ds : List Text), removed (ds.map fun d => Edit.before loc [.txt d]) p = false := by
    intro loc ds
    simp [removed, Edit.removesAt]
  have h4 : ∀ loc t, removed [.before loc t] p = false := by
    intro loc t
    simp [removed, Edit.removesAt]
  rw [h3, h4, editsFrom_numbered, removed_flatMap]
  simp only [Bool.false_eq_true, or_false, Mutation.removed_iff]
  have hc : removed (f.consts.map fun c => Edit.replace c.span.b (c.span.e - c.span.b)
      (natDec c.value)) p = true ↔ ∃ c ∈ f.consts, c.span.has p := by
    simp only [removed, List.any_map, List.any_eq_true, Function.comp_def, Edit.removesAt,
      Bool.and_eq_true, decide_eq_true_eq, Span.has]
    constructor
    · rintro ⟨c, hc, h1, h2⟩; exact ⟨c, hc, h1, by omega⟩
    · rintro ⟨c, hc, h1, h2⟩; exact ⟨c, hc, h1, by omega⟩
  rw [hc]
  refine or_congr ?_ Iff.rfl
  constructor
  · rintro ⟨x, hx, h⟩
    refine ⟨x.2, ?_, h⟩
    rw [← numbered_snd f.lang o.optimise first f.tree.post]
    exact List.mem_map_of_mem hx
  · rintro ⟨m, hm, h⟩
    rw [← numbered_snd f.lang o.optimise first f.tree.post] at hm
    obtain ⟨x, hx, rfl⟩ := List.mem_map.1 hm
    exact ⟨x, hx, h⟩

end Dredd
