/-
The grammar of a part of C and C++ has the rules that C62 asks for.
-/
import Verif.Spec.CGrammar
import Verif.Proofs.Decimal

namespace Dredd

theorem commaSep_of_mem {α : Type} {c a : α} {xs : List α} (h : a ∈ commaSep c xs) : a = c ∨ a ∈ xs := by
  fun_induction commaSep c xs with
  | case1 => cases h
  | case2 x => exact .inr h
  | case3 x y xs ih =>
    simp only [List.mem_cons] at h ih ⊢
    rcases h with h | h | h
    · exact .inr (.inl h)
    · exact .inl h
    · rcases ih h with h | h
      · exact .inl h
      · exact .inr (.inr h)

theorem items_more {n : Nat} {a b : List Sym}
    (h : [Sym.tok t!"{"] ++ List.replicate n (.nt .item) ++ [.tok t!"}"] = a ++ [.nt .item] ++ b) :
    [Sym.tok t!"{"] ++ List.replicate (n + 1) (.nt .item) ++ [.tok t!"}"]
      = a ++ [.nt .item, .nt .item] ++ b := by
  cases a with
  | nil => simp at h
  | cons x a =>
    simp only [List.cons_append, List.nil_append, List.cons.injEq, List.append_assoc] at h
    obtain ⟨rfl, h⟩ := h
    simp only [List.cons_append, List.nil_append, List.append_assoc]
    congr 1
    induction n generalizing a with
    | zero =>
      cases a <;> simp at h
    | succ n ih =>
      cases a with
      | nil =>
        simp only [List.replicate_succ, List.cons_append, List.nil_append, List.cons.injEq] at h ⊢
        simp [h.2]
      | cons y a =>
        simp only [List.replicate_succ, List.cons_append, List.cons.injEq] at h ⊢
        obtain ⟨rfl, h⟩ := h
        have := ih a h
        simp only [List.replicate_succ, List.cons_append] at this
        simp [this]

theorem cGrammar_item {cpp : Bool} {p : Phrase} {ss a b : List Sym} (h : CRule cpp p ss)
    (e : ss = a ++ [.nt .item] ++ b) : CRule cpp p (a ++ [.nt .item, .nt .item] ++ b) := by
  have hi : Sym.nt .item ∈ ss := by rw [e]; simp
  cases h with
  | block n => rw [← items_more e]; exact .block (n + 1)
  | call n =>
    simp only [List.cons_append, List.nil_append, List.mem_cons, List.mem_append, reduceCtorEq, false_or,
      Sym.nt.injEq, List.not_mem_nil, or_false] at hi
    rcases commaSep_of_mem hi with h | h
    · cases h
    · have := (List.mem_replicate.1 h).2
      cases this
  | type ts _ => simp at hi
  | ifElse p hp =>
    simp at hi hp
    rcases hp with rfl | rfl <;> simp at hi
  | while_ p hp =>
    simp at hi hp
    rcases hp with rfl | rfl <;> simp at hi
  | _ => simp at hi

theorem cGrammar_loose {cpp : Bool} {p : Phrase} {ss : List Sym} {k : Nat} (h : CRule cpp p ss)
    (hi : Sym.nt (.expr k) ∈ ss) : k ≤ 16 := by
  cases h with
  | block n =>
    simp only [List.mem_append, List.mem_cons, List.not_mem_nil, or_false, reduceCtorEq, false_or] at hi
    have := (List.mem_replicate.1 hi).2
    cases this
  | call n =>
    simp only [List.cons_append, List.nil_append, List.mem_cons, List.mem_append, reduceCtorEq, false_or,
      Sym.nt.injEq, List.not_mem_nil, or_false] at hi
    rcases hi with h | h
    · cases h; omega
    rcases commaSep_of_mem h with h | h
    · cases h
    · have := (List.mem_replicate.1 h).2
      cases this
      omega
  | type ts _ => simp at hi
  | ifElse p hp =>
    simp at hi hp
    rcases hp with rfl | rfl <;> simp at hi <;> omega
  | while_ p hp =>
    simp at hi hp
    rcases hp with rfl | rfl <;> simp at hi <;> omega
  | binary op =>
    simp only [List.mem_cons, Sym.nt.injEq, Phrase.expr.injEq, reduceCtorEq, List.not_mem_nil,
      or_false, false_or] at hi
    have : op.levels.2.1 ≤ 16 ∧ op.levels.2.2 ≤ 16 := by cases op <;> decide
    omega
  | _ => simp at hi <;> omega

theorem natDec_word (n : Nat) : (natDec n).all wordChar = true := by
  rw [List.all_eq_true]
  intro c hc
  have h := (natDec_spec n).2.1 c hc
  have : c.isDigit = true := by
    simp only [Char.isDigit, Bool.and_eq_true, decide_eq_true_eq]
    exact ⟨UInt32.le_iff_toNat_le.2 h.1, UInt32.le_iff_toNat_le.2 h.2⟩
  simp [wordChar, Char.isAlphanum, this]

/-- The grammar has the rules that matter. -/
theorem cGrammar_has (cpp : Bool) : (cGrammar cpp).Has cpp where
  name x h1 h2 := .word x (by rintro rfl; simp at h1) h2
  num n := .word _ (natDec_spec n).1 (natDec_word n)
  paren := .paren
  call := .call
  addr := .pre _ (by decide)
  lnot := .pre _ (by decide)
  logical op _ := .binary op
  semi := .semi
  null := .null
  block := .block
  ifs := .ifs
  ret := .ret
  type := .type
  cast := .cast
  lambda := .lambda
  loose p ss k h hi := cGrammar_loose h hi
  item p a b h := cGrammar_item h rfl

end Dredd
