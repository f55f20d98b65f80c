/-
Lines, columns and offsets.
-/
import Verif.Model.Query
import Verif.Model.Util

namespace Dredd

open Query

/-- Complete lines only. -/
def Closed (p : Text) : Prop := p = [] ∨ p.getLast? = some '\n'

theorem splitLines_flatten (t : Text) : (splitLines t).flatten = t := by
  induction t with
  | nil => rfl
  | cons c cs ih =>
    rw [splitLines]
    split
    · simp_all
    · split
      · rename_i h
        rw [h] at ih
        simpa using ih
      · rename_i l ls h
        rw [h] at ih
        simpa using ih

theorem splitLines_nil_iff (t : Text) : splitLines t = [] ↔ t = [] := by
  constructor
  · intro h
    have := splitLines_flatten t
    rw [h] at this
    exact this.symm
  · rintro rfl; rfl

theorem splitLines_append (p x : Text) (h : Closed p) :
    splitLines (p ++ x) = splitLines p ++ splitLines x := by
  induction p with
  | nil => rfl
  | cons c cs ih =>
    cases cs with
    | nil =>
      rcases h with h | h
      · cases h
      · simp at h
        subst h
        simp [splitLines]
    | cons d ds =>
      have hc : Closed (d :: ds) := by
        rcases h with h | h
        · cases h
        · right; simpa using h
      have ih := ih hc
      rw [List.cons_append, splitLines, splitLines, ih]
      split
      · rfl
      · have : splitLines (d :: ds) ≠ [] := by simp [splitLines_nil_iff]
        cases hs : splitLines (d :: ds) with
        | nil => exact absurd hs this
        | cons l ls => rfl

theorem splitLines_length (p : Text) (h : Closed p) : (splitLines p).length = p.count '\n' := by
  induction p with
  | nil => rfl
  | cons c cs ih =>
    cases cs with
    | nil =>
      rcases h with h | h
      · cases h
      · simp at h
        subst h
        decide
    | cons d ds =>
      have hc : Closed (d :: ds) := by
        rcases h with h | h
        · cases h
        · right; simpa using h
      have ih := ih hc
      rw [splitLines]
      split
      · rename_i hcn
        subst hcn
        simp [ih]
      · rename_i hcn
        have : splitLines (d :: ds) ≠ [] := by simp [splitLines_nil_iff]
        cases hs : splitLines (d :: ds) with
        | nil => exact absurd hs this
        | cons l ls =>
          rw [hs] at ih
          rw [List.count_cons_of_ne hcn, ← ih]
          rfl

theorem splitLines_open (q x : Text) (hq : '\n' ∉ q) (hne : q ++ x ≠ []) :
    ∃ l ls, splitLines (q ++ x) = (q ++ l) :: ls := by
  induction q with
  | nil =>
    cases hs : splitLines x with
    | nil => exact absurd ((splitLines_nil_iff x).1 hs) (by simpa using hne)
    | cons l ls => exact ⟨l, ls, by simpa using hs⟩
  | cons c cs ih =>
    simp only [List.mem_cons, not_or] at hq
    rw [List.cons_append, splitLines, if_neg (fun h => hq.1 h.symm)]
    by_cases h : cs ++ x = []
    · simp only [List.append_eq_nil_iff] at h
      obtain ⟨rfl, rfl⟩ := h
      exact ⟨[], [], rfl⟩
    · obtain ⟨l, ls, hl⟩ := ih hq.2 h
      exact ⟨l, ls, by rw [hl]; rfl⟩

/-- Everything up to an offset: complete lines, and the beginning of a line. -/
theorem split_at (t : Text) : ∃ p q : Text, t = p ++ q ∧ Closed p ∧ '\n' ∉ q ∧
    q.length = (t.reverse.takeWhile (· != '\n')).length ∧ p.count '\n' = t.count '\n' := by
  refine ⟨(t.reverse.dropWhile (· != '\n')).reverse, (t.reverse.takeWhile (· != '\n')).reverse,
    ?_, ?_, ?_, ?_, ?_⟩
  · rw [← List.reverse_append, List.takeWhile_append_dropWhile, List.reverse_reverse]
  · unfold Closed
    cases h : t.reverse.dropWhile (· != '\n') with
    | nil => left; rfl
    | cons c cs =>
      right
      have := List.head?_dropWhile_not (· != '\n') t.reverse
      rw [h] at this
      simp at this
      simp [this]
  · rw [List.mem_reverse]
    intro hm
    have := List.all_takeWhile (p := (· != '\n')) (l := t.reverse)
    rw [List.all_eq_true] at this
    have := this _ hm
    simp at this
  · simp
  · have h0 : (t.reverse.takeWhile (· != '\n')).count '\n' = 0 := by
      rw [List.count_eq_zero]
      intro hm
      have := List.all_takeWhile (p := (· != '\n')) (l := t.reverse)
      rw [List.all_eq_true] at this
      have := this _ hm
      simp at this
    have h1 : (t.reverse.takeWhile (· != '\n') ++ t.reverse.dropWhile (· != '\n')).count '\n'
        = t.count '\n' := by
      rw [List.takeWhile_append_dropWhile, List.count_reverse]
    rw [List.count_append, h0, Nat.zero_add] at h1
    rw [List.count_reverse, h1]

theorem linesFrom_eq (lines : List Text) (i n : Nat) (h : i + n ≤ lines.length) :
    linesFrom lines i n = some ((lines.drop i).take n).flatten := by
  induction n generalizing i with
  | zero => simp [linesFrom]
  | succ n ih =>
    have hi : i < lines.length := by omega
    rw [linesFrom, ih (i + 1) (by omega), List.getElem?_eq_getElem hi]
    simp only [Option.bind_eq_bind, Option.bind_some, Option.pure_def, Option.some.injEq]
    rw [List.drop_eq_getElem_cons hi, List.take_succ_cons, List.flatten_cons]

/-- The lines and columns of two offsets select the text between them. -/
theorem lines_between (src : Text) (b e : Nat) (h : b < e) (he : e ≤ src.length)
    (hq : ¬ (e = src.length ∧ columnOf src e = 1)) (hr : universal src = src) :
    ∃ single blank, textForRange src ⟨lineOf src b, columnOf src b⟩ ⟨lineOf src e, columnOf src e⟩ =
      some ⟨single, blank, (src.take e).drop b⟩ := by
  obtain ⟨p, q, h1, h2, h3, h4, h5⟩ := split_at (src.take b)
  obtain ⟨p', q', h1', h2', h3', h4', h5'⟩ := split_at (src.take e)
  have hc : columnOf src b = q.length + 1 := by rw [columnOf, h4]
  have hc' : columnOf src e = q'.length + 1 := by rw [columnOf, h4']
  have hl : lineOf src b = p.count '\n' + 1 := by rw [lineOf, h5]
  have hl' : lineOf src e = p'.count '\n' + 1 := by rw [lineOf, h5']
  have hs : src = p ++ (q ++ src.drop b) := by
    rw [← List.append_assoc, ← h1, List.take_append_drop]
  have hs' : src = p' ++ (q' ++ src.drop e) := by
    rw [← List.append_assoc, ← h1', List.take_append_drop]
  obtain ⟨l, ls, hL⟩ := splitLines_open q (src.drop b) h3 (by
    intro hn
    have := congrArg List.length hn
    simp only [List.length_append, List.length_drop, List.length_nil] at this
    omega)
  obtain ⟨l', ls', hL'⟩ := splitLines_open q' (src.drop e) h3' (by
    intro hn
    have hlen := congrArg List.length hn
    simp only [List.length_append, List.length_drop, List.length_nil] at hlen
    exact hq ⟨by omega, by rw [hc']; omega⟩)
  have hlines : splitLines src = splitLines p ++ (q ++ l) :: ls := by
    rw [← hL, ← splitLines_append _ _ h2, ← hs]
  have hlines' : splitLines src = splitLines p' ++ (q' ++ l') :: ls' := by
    rw [← hL', ← splitLines_append _ _ h2', ← hs']
  have hn := splitLines_length p h2
  have hn' := splitLines_length p' h2'
  have hmid : src.take e = src.take b ++ (src.take e).drop b := by
    have := (List.take_append_drop b (src.take e)).symm
    rwa [List.take_take, Nat.min_eq_left (Nat.le_of_lt h)] at this
  generalize (src.take e).drop b = mid at hmid
  have hget : (splitLines src)[p.count '\n']? = some (q ++ l) := by
    rw [hlines, ← hn, List.getElem?_append_right (Nat.le_refl _)]
    simp
  have hget' : (splitLines src)[p'.count '\n']? = some (q' ++ l') := by
    rw [hlines', ← hn', List.getElem?_append_right (Nat.le_refl _)]
    simp
  unfold textForRange readlines
  rw [hr, hl, hl', hc, hc']
  simp only [Nat.add_sub_cancel, hget, hget', Option.bind_eq_bind, Option.bind_some, Option.pure_def,
    Nat.add_right_cancel_iff]
  by_cases heq : p.count '\n' = p'.count '\n'
  · rw [if_pos heq]
    refine ⟨true, [], ?_⟩
    have hp : p = p' := by
      have a1 : splitLines p = (splitLines src).take (p.count '\n') := by
        rw [hlines, ← hn]; simp
      have a2 : splitLines p' = (splitLines src).take (p'.count '\n') := by
        rw [hlines', ← hn']; simp
      rw [← splitLines_flatten p, ← splitLines_flatten p', a1, a2, heq]
    subst hp
    have hqq : q' = q ++ mid := by
      rw [h1', h1, List.append_assoc] at hmid
      exact List.append_cancel_left hmid
    have hql : q ++ l = q' ++ l' := by
      rw [hlines] at hlines'
      exact (List.cons.inj (List.append_cancel_left hlines')).1
    rw [hql, slice, List.take_left', hqq, List.drop_left']
    · rfl
    · rfl
  · rw [if_neg heq]
    have hlt : p.count '\n' < p'.count '\n' := by
      have : (src.take b).count '\n' ≤ (src.take e).count '\n' := by
        rw [hmid, List.count_append]; omega
      omega
    have hlen' : p'.count '\n' < (splitLines src).length := by
      rw [hlines', ← hn']; simp
    rw [linesFrom_eq _ _ _ (by omega)]
    refine ⟨false, List.replicate q.length ' ', ?_⟩
    simp only [Option.bind_some, Option.some.injEq, Shown.mk.injEq, true_and]
    rw [List.drop_left', List.take_left'] <;> try rfl
    generalize hM : (((splitLines src).drop (p.count '\n' + 1)).take
      (p'.count '\n' - (p.count '\n' + 1))).flatten = M
    have hp' : p' = p ++ (q ++ l) ++ M := by
      have a2 : splitLines p' = (splitLines src).take (p'.count '\n') := by
        rw [hlines', ← hn']; simp
      have hk : p'.count '\n' = p.count '\n' + 1 + (p'.count '\n' - (p.count '\n' + 1)) := by omega
      rw [← splitLines_flatten p', a2, hk, List.take_add, List.flatten_append, hM]
      congr 1
      rw [hlines, ← hn]
      rw [List.take_length_add_append]
      simp [splitLines_flatten]
    rw [h1', h1, hp'] at hmid
    simp only [List.append_assoc] at hmid
    have := List.append_cancel_left (List.append_cancel_left hmid)
    simpa using this

end Dredd
