/-
Lexemes of texts that are put together.
-/
import Verif.Spec.Lex
import Verif.Proofs.Rewrite

namespace Dredd

/-- The text of lexemes. -/
def lexText (xs : List Lexeme) : Text := xs.flatMap (·.2)

@[simp] theorem lexText_nil : lexText [] = [] := rfl
@[simp] theorem lexText_cons (x : Lexeme) (xs : List Lexeme) :
    lexText (x :: xs) = x.2 ++ lexText xs := rfl

theorem lexFrom_text (s : Lexing) (u t : Text) : lexText (lexFrom s u t) = u ++ t := by
  induction t generalizing s u with
  | nil => simp [lexFrom]
  | cons c cs ih =>
    simp only [lexFrom]
    split
    · rw [ih]; simp
    · rw [lexText_cons, ih]; simp

theorem lexemes_text (t : Text) : lexText (lexemes t) = t := by
  cases t with
  | nil => rfl
  | cons c cs => simp [lexemes, lexFrom_text]

/-- What is being read at the end of a text. -/
def lexEnd (s : Lexing) : Text → Lexing
  | [] => s
  | c :: cs => lexEnd ((s.more c).getD (.start c)) cs

theorem lexEnd_append (s : Lexing) (a b : Text) : lexEnd s (a ++ b) = lexEnd (lexEnd s a) b := by
  induction a generalizing s with
  | nil => rfl
  | cons c cs ih => exact ih _

/-- What is being read at the end of a text, if it is not empty. -/
def endSt : Text → Option Lexing
  | [] => none
  | c :: cs => some (lexEnd (.start c) cs)

theorem lexFrom_append (s : Lexing) (u a b : Text) (c : Char)
    (h : (lexEnd s a).more c = none) :
    lexFrom s u (a ++ c :: b) = lexFrom s u a ++ lexemes (c :: b) := by
  induction a generalizing s u with
  | nil =>
    simp only [lexEnd] at h
    simp [lexFrom, h, lexemes]
  | cons d ds ih =>
    simp only [lexEnd] at h
    simp only [List.cons_append, lexFrom]
    cases hm : s.more d with
    | some s' => rw [hm] at h; exact ih _ _ h
    | none => rw [hm] at h; simp only [List.cons_append]; rw [ih (.start d) _ h]

/-- `c` does not belong to what was being read. -/
def Ok (s : Option Lexing) (c : Char) : Prop := ∀ x, s = some x → x.more c = none

theorem lexemes_append (a b : Text) (c : Char) (h : Ok (endSt a) c) :
    lexemes (a ++ c :: b) = lexemes a ++ lexemes (c :: b) := by
  cases a with
  | nil => rfl
  | cons d ds => exact lexFrom_append _ _ _ _ _ (h _ rfl)

theorem endSt_append (a b : Text) (c : Char) (h : Ok (endSt a) c) :
    endSt (a ++ c :: b) = endSt (c :: b) := by
  cases a with
  | nil => rfl
  | cons d ds =>
    have := h _ rfl
    simp only [List.cons_append, endSt, lexEnd_append, lexEnd, this, Option.getD_none]

/-- A text is one lexeme. -/
def Single (x : Lexeme) : Prop := x.2 ≠ [] ∧ lexemes x.2 = [x] ∧ endSt x.2 = some x.1

theorem single_start (c : Char) : Single (.start c, [c]) := ⟨by simp, rfl, rfl⟩

theorem lexFrom_one (s s' : Lexing) (u a : Text) (h : lexFrom s u a = [(s', u ++ a)]) (c : Char)
    (s'' : Lexing) (hm : s'.more c = some s'') :
    lexFrom s u (a ++ [c]) = [(s'', u ++ a ++ [c])] := by
  induction a generalizing s u with
  | nil =>
    simp only [lexFrom, List.append_nil, List.cons.injEq, Prod.mk.injEq, and_true] at h
    subst h
    simp [lexFrom, hm]
  | cons d ds ih =>
    simp only [List.cons_append, lexFrom] at h ⊢
    cases hd : s.more d with
    | some x =>
      rw [hd] at h
      have := ih x (u ++ [d]) (by simpa using h)
      simpa using this
    | none =>
      rw [hd] at h
      simp only [List.cons.injEq, Prod.mk.injEq] at h
      exact absurd (congrArg List.length h.1.2) (by simp)

theorem Single.more {s s' : Lexing} {u : Text} (h : Single (s, u)) {c : Char} (hm : s.more c = some s') :
    Single (s', u ++ [c]) := by
  obtain ⟨h1, h2, h3⟩ := h
  cases u with
  | nil => exact absurd rfl h1
  | cons d ds =>
    refine ⟨by simp, lexFrom_one _ _ [d] ds h2 c s' hm, ?_⟩
    simp only [endSt, Option.some.injEq] at h3
    simp [endSt, lexEnd_append, lexEnd, h3, hm]

theorem lexFrom_single (s : Lexing) (u t : Text) (h : Single (s, u)) :
    ∀ x ∈ lexFrom s u t, Single x := by
  induction t generalizing s u with
  | nil => intro x hx; rw [List.mem_singleton.1 hx]; exact h
  | cons c cs ih =>
    intro x hx
    simp only [lexFrom] at hx
    cases hm : s.more c with
    | some s' => rw [hm] at hx; exact ih _ _ (h.more hm) x hx
    | none =>
      rw [hm] at hx
      rcases List.mem_cons.1 hx with rfl | hx
      · exact h
      · exact ih _ _ (single_start c) x hx

theorem lexemes_single (t : Text) : ∀ x ∈ lexemes t, Single x := by
  cases t with
  | nil => intro x hx; cases hx
  | cons c cs => exact lexFrom_single _ _ _ (single_start c)

/-- Neighbouring lexemes do not go together. -/
def Chained : List Lexeme → Prop
  | x :: y :: r => (∀ c cs, y.2 = c :: cs → x.1.more c = none) ∧ Chained (y :: r)
  | _ => True

theorem lexFrom_chained (s : Lexing) (u t : Text) (hu : u ≠ []) :
    Chained (lexFrom s u t) ∧ ∃ s' v r, lexFrom s u t = (s', u ++ v) :: r := by
  induction t generalizing s u with
  | nil => exact ⟨trivial, s, [], [], by simp [lexFrom]⟩
  | cons c cs ih =>
    simp only [lexFrom]
    cases hm : s.more c with
    | some s' =>
      obtain ⟨h1, s'', v, r, h2⟩ := ih s' (u ++ [c]) (by simp)
      exact ⟨h1, s'', c :: v, r, by simp [h2]⟩
    | none =>
      obtain ⟨h1, s'', v, r, h2⟩ := ih (.start c) [c] (by simp)
      refine ⟨?_, s, [], _, by simp; rfl⟩
      simp only [h2] at h1 ⊢
      refine ⟨?_, h1⟩
      intro d ds hd
      simp only [List.cons_append, List.nil_append, List.cons.injEq] at hd
      rw [← hd.1]; exact hm

theorem lexemes_chained (t : Text) : Chained (lexemes t) := by
  cases t with
  | nil => trivial
  | cons c cs => exact (lexFrom_chained _ _ _ (by simp)).1

/-! ### Rewriting -/

/-- Nothing happens inside of lexemes. -/
def Uniform (es : List Edit) (o : Nat) (L : List Lexeme) : Prop :=
  ∀ p x, (p, x) ∈ placed o L → ∀ i, p < i → i < p + x.2.length →
    slot es i = [] ∧ removed es i = removed es p

/-- Nothing goes together with its neighbour when the lexemes `L` at `o` are rewritten and `s` was
being read before. -/
def Glued (es : List Edit) (o : Nat) (s : Option Lexing) : List Lexeme → Prop
  | [] => ∀ c cs, slot es o = c :: cs → Ok s c
  | x :: L =>
    (∀ c cs, slot es o = c :: cs → Ok s c) ∧
    let s1 := if slot es o = [] then s else endSt (slot es o)
    if removed es o then Glued es (o + x.2.length) s1 L
    else (∀ c cs, x.2 = c :: cs → Ok s1 c) ∧ Glued es (o + x.2.length) (some x.1) L

theorem rewriteFrom_skip (es : List Edit) (o : Nat) (u rest : Text) (r : Bool)
    (h : ∀ i, o ≤ i → i < o + u.length → slot es i = [] ∧ removed es i = r) :
    rewriteFrom es o (u ++ rest) = (if r then [] else u) ++ rewriteFrom es (o + u.length) rest := by
  induction u generalizing o with
  | nil => simp
  | cons c cs ih =>
    obtain ⟨h1, h2⟩ := h o (Nat.le_refl _) (by simp)
    have := ih (o + 1) (fun i hi hi' => h i (by omega) (by simp at hi' ⊢; omega))
    simp only [List.cons_append, rewriteFrom, this, h1, h2, List.length_cons]
    rw [show o + 1 + cs.length = o + (cs.length + 1) by omega]
    cases r <;> simp

theorem rewriteFrom_lexeme (es : List Edit) (o : Nat) (x : Lexeme) (rest : Text) (hx : x.2 ≠ [])
    (h : ∀ i, o < i → i < o + x.2.length → slot es i = [] ∧ removed es i = removed es o) :
    rewriteFrom es o (x.2 ++ rest) =
      slot es o ++ (if removed es o then [] else x.2) ++ rewriteFrom es (o + x.2.length) rest := by
  obtain ⟨s, u⟩ := x
  cases u with
  | nil => exact absurd rfl hx
  | cons c cs =>
    have := rewriteFrom_skip es (o + 1) cs rest (removed es o)
      (fun i hi hi' => h i (by omega) (by simp; omega))
    simp only [List.cons_append, rewriteFrom, this, List.length_cons]
    rw [show o + 1 + cs.length = o + (cs.length + 1) by omega]
    cases removed es o <;> simp

theorem lexemes_glue {a b : Text} (h : ∀ c cs, b = c :: cs → Ok (endSt a) c) :
    lexemes (a ++ b) = lexemes a ++ lexemes b ∧
      endSt (a ++ b) = if b = [] then endSt a else endSt b := by
  cases b with
  | nil => simp [lexemes]
  | cons c cs =>
    exact ⟨lexemes_append _ _ _ (h c cs rfl), by
      rw [if_neg (by simp), endSt_append _ _ _ (h c cs rfl)]⟩

/-- The comparison of the lexemes `L` at `o` with the rewritten text. -/
def itemsOf (es : List Edit) (o : Nat) : List Lexeme → List LItem
  | [] => [.ins (slot es o)]
  | x :: L => .ins (slot es o) :: (if removed es o then .del x else .keep x) ::
      itemsOf es (o + x.2.length) L

theorem rewrite_lexemes (es : List Edit) (L : List Lexeme) :
    ∀ (o : Nat) (A : Text), (∀ x ∈ L, Single x) → Uniform es o L → Glued es o (endSt A) L →
      ∃ items, items = itemsOf es o L ∧ LItem.old items = L ∧
        lexemes (A ++ rewriteFrom es o (lexText L)) = lexemes A ++ LItem.new items ∧
        ∀ p x, (p, x) ∈ LItem.gone o items ↔ (p, x) ∈ placed o L ∧ removed es p = true := by
  induction L with
  | nil =>
    intro o A _ _ hg
    refine ⟨[.ins (slot es o)], rfl, rfl, ?_, by simp [LItem.gone, placed]⟩
    simp only [Glued] at hg
    simp [rewriteFrom, LItem.new, (lexemes_glue hg).1]
  | cons x L ih =>
    intro o A hs hu hg
    have hx := hs x (List.mem_cons_self ..)
    obtain ⟨hg1, hg2⟩ := hg
    have hrw := rewriteFrom_lexeme es o x (lexText L) hx.1
      (hu o x (List.mem_cons_self ..))
    have hu' : Uniform es (o + x.2.length) L :=
      fun p y hy => hu p y (List.mem_cons_of_mem _ hy)
    obtain ⟨e1, e2⟩ := lexemes_glue hg1
    have e2' : endSt (A ++ slot es o) = if slot es o = [] then endSt A else endSt (slot es o) := e2
    rw [lexText_cons, hrw]
    simp only at hg2
    rw [← e2'] at hg2
    cases hr : removed es o
    · rw [hr] at hg2
      simp only [Bool.false_eq_true, if_false] at hg2 ⊢
      obtain ⟨f1, f2⟩ := lexemes_glue hg2.1
      rw [if_neg hx.1, hx.2.2] at f2
      obtain ⟨items, i0, i1, i2, i3⟩ := ih (o + x.2.length) (A ++ slot es o ++ x.2)
        (fun y hy => hs y (List.mem_cons_of_mem _ hy)) hu' (by rw [f2]; exact hg2.2)
      refine ⟨.ins (slot es o) :: .keep x :: items, by simp [itemsOf, hr, i0], by simp [LItem.old, i1], ?_, ?_⟩
      · have e : A ++ (slot es o ++ x.2 ++ rewriteFrom es (o + x.2.length) (lexText L)) =
            A ++ slot es o ++ x.2 ++ rewriteFrom es (o + x.2.length) (lexText L) := by simp
        rw [e, i2, f1, e1, hx.2.1]
        simp [LItem.new]
      · intro p y
        simp only [LItem.gone, placed, List.mem_cons, i3, Prod.mk.injEq]
        constructor
        · rintro ⟨h1, h2⟩; exact ⟨.inr h1, h2⟩
        · rintro ⟨⟨rfl, rfl⟩ | h1, h2⟩
          · rw [hr] at h2; cases h2
          · exact ⟨h1, h2⟩
    · rw [hr] at hg2
      simp only [if_true, List.append_nil] at hg2 ⊢
      obtain ⟨items, i0, i1, i2, i3⟩ := ih (o + x.2.length) (A ++ slot es o)
        (fun y hy => hs y (List.mem_cons_of_mem _ hy)) hu' hg2
      refine ⟨.ins (slot es o) :: .del x :: items, by simp [itemsOf, hr, i0], by simp [LItem.old, i1], ?_, ?_⟩
      · rw [← List.append_assoc, i2, e1]
        simp [LItem.new]
      · intro p y
        simp only [LItem.gone, placed, List.mem_cons, i3, Prod.mk.injEq]
        constructor
        · rintro (⟨rfl, rfl⟩ | ⟨h1, h2⟩)
          · exact ⟨.inl ⟨rfl, rfl⟩, hr⟩
          · exact ⟨.inr h1, h2⟩
        · rintro ⟨h1 | h1, h2⟩
          · exact .inl h1
          · exact .inr ⟨h1, h2⟩

end Dredd
