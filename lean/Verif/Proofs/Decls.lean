/-
Lemmas about sorted sets of declarations and about text inserted at one place.
-/
import Verif.Proofs.Run

namespace Dredd

theorem textLt_irrefl (a : Text) : textLt a a = false := by
  induction a with
  | nil => rfl
  | cons c cs ih => simp [textLt, ih]

theorem textLt_trans {a b c : Text} (h1 : textLt a b = true) (h2 : textLt b c = true) :
    textLt a c = true := by
  induction a generalizing b c with
  | nil =>
    cases b with
    | nil => simp [textLt] at h1
    | cons y ys =>
      cases c with
      | nil => simp [textLt] at h2
      | cons z zs => simp [textLt]
  | cons x xs ih =>
    cases b with
    | nil => simp [textLt] at h1
    | cons y ys =>
      cases c with
      | nil => simp [textLt] at h2
      | cons z zs =>
        simp only [textLt, Bool.or_eq_true, decide_eq_true_eq, Bool.and_eq_true, beq_iff_eq]
          at h1 h2 ⊢
        rcases h1 with h1 | ⟨rfl, h1⟩
        · rcases h2 with h2 | ⟨rfl, h2⟩
          · exact .inl (by omega)
          · exact .inl h1
        · rcases h2 with h2 | ⟨rfl, h2⟩
          · exact .inl h2
          · exact .inr ⟨rfl, ih h1 h2⟩

theorem textLt_total (a b : Text) : textLt a b = true ∨ a = b ∨ textLt b a = true := by
  induction a generalizing b with
  | nil => cases b <;> simp [textLt]
  | cons x xs ih =>
    cases b with
    | nil => simp [textLt]
    | cons y ys =>
      simp only [textLt, Bool.or_eq_true, decide_eq_true_eq, Bool.and_eq_true, beq_iff_eq,
        List.cons.injEq]
      rcases Nat.lt_trichotomy x.toNat y.toNat with h | h | h
      · exact .inl (.inl h)
      · have hxy : x = y := by
          apply Char.ext
          apply UInt32.toNat_inj.1
          exact h
        subst hxy
        rcases ih ys with h | h | h
        · exact .inl (.inr ⟨rfl, h⟩)
        · exact .inr (.inl ⟨rfl, h⟩)
        · exact .inr (.inr (.inr ⟨rfl, h⟩))
      · exact .inr (.inr (.inl h))

/-- Strictly increasing. -/
abbrev StrictlySorted (ds : List Text) : Prop := ds.Pairwise fun a b => textLt a b = true

theorem mem_insertSorted (t x : Text) (ds : List Text) :
    x ∈ insertSorted t ds ↔ x = t ∨ x ∈ ds := by
  induction ds with
  | nil => simp [insertSorted]
  | cons d ds ih =>
    unfold insertSorted
    split
    next h => subst h; simp
    split
    · simp
    · simp only [List.mem_cons, ih]
      constructor
      · rintro (h | h | h) <;> simp [h]
      · rintro (h | h | h) <;> simp [h]

theorem insertSorted_sorted (t : Text) (ds : List Text) (h : StrictlySorted ds) :
    StrictlySorted (insertSorted t ds) := by
  induction ds with
  | nil => simp [insertSorted]
  | cons d ds ih =>
    obtain ⟨h1, h2⟩ := List.pairwise_cons.1 h
    unfold insertSorted
    split
    · exact h
    next hne =>
      split
      next hlt =>
        refine List.pairwise_cons.2 ⟨?_, h⟩
        intro x hx
        rcases List.mem_cons.1 hx with rfl | hx
        · exact hlt
        · exact textLt_trans hlt (h1 x hx)
      next hlt =>
        refine List.pairwise_cons.2 ⟨?_, ih h2⟩
        intro x hx
        rcases (mem_insertSorted t x ds).1 hx with rfl | hx
        · rcases textLt_total x d with h | h | h
          · exact absurd h hlt
          · exact absurd h hne
          · exact h
        · exact h1 x hx

theorem mem_sortedDecls (x : Text) (ds : List Text) : x ∈ sortedDecls ds ↔ x ∈ ds := by
  induction ds with
  | nil => simp [sortedDecls]
  | cons d ds ih =>
    have : sortedDecls (d :: ds) = insertSorted d (sortedDecls ds) := rfl
    rw [this, mem_insertSorted, ih, List.mem_cons]

theorem sortedDecls_sorted (ds : List Text) : StrictlySorted (sortedDecls ds) := by
  induction ds with
  | nil => exact .nil
  | cons d ds ih => exact insertSorted_sorted _ _ ih

theorem sorted_unique {as bs : List Text} (ha : StrictlySorted as) (hb : StrictlySorted bs)
    (h : ∀ x, x ∈ as ↔ x ∈ bs) : as = bs := by
  induction as generalizing bs with
  | nil =>
    cases bs with
    | nil => rfl
    | cons b bs => exact absurd ((h b).2 (by simp)) (by simp)
  | cons a as ih =>
    cases bs with
    | nil => exact absurd ((h a).1 (by simp)) (by simp)
    | cons b bs =>
      obtain ⟨a1, a2⟩ := List.pairwise_cons.1 ha
      obtain ⟨b1, b2⟩ := List.pairwise_cons.1 hb
      have hab : a = b := by
        rcases List.mem_cons.1 ((h a).1 (by simp)) with h1 | h1
        · exact h1
        rcases List.mem_cons.1 ((h b).2 (by simp)) with h2 | h2
        · exact h2.symm
        have := textLt_trans (a1 b h2) (b1 a h1)
        rw [textLt_irrefl] at this
        cases this
      subst hab
      rw [ih a2 b2 fun x => ?_]
      constructor
      · intro hx
        rcases List.mem_cons.1 ((h x).1 (by simp [hx])) with rfl | h1
        · have := a1 x hx
          rw [textLt_irrefl] at this
          cases this
        · exact h1
      · intro hx
        rcases List.mem_cons.1 ((h x).2 (by simp [hx])) with rfl | h1
        · have := b1 x hx
          rw [textLt_irrefl] at this
          cases this
        · exact h1

/-! ### Text inserted at one place -/

/-- The offset an edit refers to. -/
def Edit.off : Edit → Nat
  | .before o _ | .after o _ | .replace o _ _ => o

theorem befores_append (es fs : List Edit) (o : Nat) :
    befores (es ++ fs) o = befores fs o ++ befores es o := by simp [befores]

theorem befores_cons (e : Edit) (es : List Edit) (o : Nat) :
    befores (e :: es) o = befores es o ++ e.beforeAt o := by simp [befores]

theorem flatMap_filter_nil {α β : Type} (p : α → Bool) (f : α → List β) (xs : List α)
    (h : ∀ x, p x = false → f x = []) : (xs.filter p).flatMap f = xs.flatMap f := by
  induction xs with
  | nil => rfl
  | cons x xs ih =>
    cases hp : p x
    · simp [hp, ih, h x hp]
    · simp [hp, ih]

/-- All edits are insertions in front of `loc`. -/
def OnlyBefore (loc : Nat) (es : List Edit) : Prop := ∀ e ∈ es, ∃ t, e = .before loc t

theorem OnlyBefore.befores_ne {loc o : Nat} {es : List Edit} (h : OnlyBefore loc es)
    (ho : o ≠ loc) : befores es o = [] := by
  induction es with
  | nil => rfl
  | cons e es ih =>
    obtain ⟨t, rfl⟩ := h e (by simp)
    rw [befores_cons, ih fun e he => h e (by simp [he])]
    simp [Edit.beforeAt, Ne.symm ho]

theorem OnlyBefore.afters {loc : Nat} {es : List Edit} (h : OnlyBefore loc es) (o : Nat) :
    afters es o = [] := by
  unfold Dredd.afters
  rw [List.flatMap_eq_nil_iff]
  intro e he
  obtain ⟨t, rfl⟩ := h e he
  rfl

theorem OnlyBefore.replacements {loc : Nat} {es : List Edit} (h : OnlyBefore loc es) (o : Nat) :
    replacements es o = [] := by
  unfold Dredd.replacements
  rw [List.flatMap_eq_nil_iff]
  intro e he
  obtain ⟨t, rfl⟩ := h e he
  rfl

theorem OnlyBefore.removed {loc : Nat} {es : List Edit} (h : OnlyBefore loc es) (o : Nat) :
    removed es o = false := by
  unfold Dredd.removed
  rw [List.any_eq_false]
  intro e he
  obtain ⟨t, rfl⟩ := h e he
  simp [Edit.removesAt]

theorem slot_append_only {loc : Nat} {A B : List Edit} (h : OnlyBefore loc B) (o : Nat) :
    slot (A ++ B) o = (if o = loc then befores B loc else []) ++ slot A o := by
  unfold slot
  rw [befores_append]
  have h1 : afters (A ++ B) o = afters A o := by
    have := h.afters o
    unfold afters at this ⊢
    rw [List.flatMap_append, this, List.append_nil]
  have h2 : replacements (A ++ B) o = replacements A o := by
    have := h.replacements o
    unfold replacements at this ⊢
    rw [List.flatMap_append, this, List.append_nil]
  rw [h1, h2]
  split
  next ho => subst ho; simp
  next ho => rw [h.befores_ne ho]; simp

theorem removed_append (A B : List Edit) (o : Nat) :
    removed (A ++ B) o = (removed A o || removed B o) := by simp [removed]

theorem rewriteFrom_after {loc : Nat} {A B : List Edit} (h : OnlyBefore loc B) (src : Text)
    (o : Nat) (ho : loc < o) : rewriteFrom (A ++ B) o src = rewriteFrom A o src := by
  induction src generalizing o with
  | nil => simp [rewriteFrom, slot_append_only h, Nat.ne_of_gt ho]
  | cons c cs ih =>
    simp only [rewriteFrom]
    rw [ih (o + 1) (by omega), slot_append_only h, removed_append, h.removed]
    simp [Nat.ne_of_gt ho]

theorem slot_filter (A : List Edit) (loc o : Nat) (ho : o < loc) :
    slot (A.filter fun e => e.off < loc) o = slot A o := by
  have key : ∀ e : Edit, decide (e.off < loc) = false →
      e.beforeAt o = [] ∧ e.afterAt o = [] ∧ e.replaceAt o = [] := by
    intro e he
    have he : ¬ e.off < loc := by simpa using he
    cases e <;> simp only [Edit.off] at he <;>
      simp [Edit.beforeAt, Edit.afterAt, Edit.replaceAt] <;> omega
  unfold slot befores afters replacements
  rw [← List.filter_reverse, flatMap_filter_nil _ _ _ fun e he => (key e he).1,
    flatMap_filter_nil _ _ _ fun e he => (key e he).2.1,
    flatMap_filter_nil _ _ _ fun e he => (key e he).2.2]

theorem slot_filter_end (A : List Edit) (loc : Nat) :
    slot (A.filter fun e => e.off < loc) loc = [] := by
  have key : ∀ e : Edit, e.off < loc →
      e.beforeAt loc = [] ∧ e.afterAt loc = [] ∧ e.replaceAt loc = [] := by
    intro e he
    cases e <;> simp only [Edit.off] at he <;>
      simp [Edit.beforeAt, Edit.afterAt, Edit.replaceAt] <;> omega
  unfold slot befores afters replacements
  simp only [List.append_eq_nil_iff, List.flatMap_eq_nil_iff]
  refine ⟨⟨?_, ?_⟩, ?_⟩ <;> intro e he <;> simp at he
  · exact (key e he.2).1
  · exact (key e he.2).2.1
  · exact (key e he.2).2.2

theorem removed_filter (A : List Edit) (loc o : Nat) (ho : o < loc) :
    removed (A.filter fun e => e.off < loc) o = removed A o := by
  unfold removed
  rw [List.any_filter]
  congr 1
  funext e
  cases e with
  | replace p n t =>
    rw [Bool.eq_iff_iff]
    have hoff : (Edit.replace p n t).off = p := rfl
    simp only [hoff, Edit.removesAt, Bool.and_eq_true, decide_eq_true_eq]
    omega
  | before p t => simp [Edit.removesAt]
  | after p t => simp [Edit.removesAt]

/-- Insertions in front of `loc`, made after all other edits, put one piece of
text there and do nothing else. -/
theorem rewriteFrom_insert {loc : Nat} {A B : List Edit} (h : OnlyBefore loc B) (src : Text)
    (o : Nat) (h1 : o ≤ loc) (h2 : loc ≤ o + src.length) :
    ∃ back, rewriteFrom (A ++ B) o src
        = rewriteFrom (A.filter fun e => e.off < loc) o (src.take (loc - o)) ++ befores B loc ++ back ∧
      rewriteFrom A o src
        = rewriteFrom (A.filter fun e => e.off < loc) o (src.take (loc - o)) ++ back := by
  induction src generalizing o with
  | nil =>
    have : o = loc := by simp at h2; omega
    subst this
    refine ⟨slot A o, ?_, ?_⟩ <;> simp [rewriteFrom, slot_append_only h, slot_filter_end]
  | cons c cs ih =>
    by_cases ho : o = loc
    · subst ho
      refine ⟨slot A o ++ (if removed A o then [] else [c]) ++ rewriteFrom A (o + 1) cs, ?_, ?_⟩
      · simp only [Nat.sub_self, List.take_zero, rewriteFrom, slot_append_only h, slot_filter_end,
          removed_append, h.removed, rewriteFrom_after h cs (o + 1) (Nat.lt_succ_self _)]
        simp
      · simp [rewriteFrom, slot_filter_end]
    · have hlt : o < loc := by omega
      obtain ⟨back, e1, e2⟩ := ih (o + 1) (by omega) (by simp at h2; omega)
      refine ⟨back, ?_, ?_⟩
      · have : loc - o = (loc - (o + 1)) + 1 := by omega
        rw [this, List.take_succ_cons]
        simp only [rewriteFrom]
        rw [e1, slot_append_only h, removed_append, h.removed, slot_filter _ _ _ hlt,
          removed_filter _ _ _ hlt]
        simp [ho]
      · have : loc - o = (loc - (o + 1)) + 1 := by omega
        rw [this, List.take_succ_cons]
        simp only [rewriteFrom]
        rw [e2, slot_filter _ _ _ hlt, removed_filter _ _ _ hlt]
        simp

end Dredd
