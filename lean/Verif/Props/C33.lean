/-
C33: snippets are bounded and faithful.
C34: ranges accepted for mutation never end before they start.
-/
import Verif.Model.Util

namespace Dredd

/-- The text of the range that begins at offset `b` and ends before offset
`e`. -/
def textOfRange (src : Text) (b e : Nat) : Text := (src.take e).drop b

theorem rangeLength_eq (b last len : Nat) (h : b ≤ last) (h' : last + len < 2 ^ 32) :
    rangeLength b last len = last + len - b := by
  unfold rangeLength
  simp only [BitVec.toNat_add, BitVec.toNat_sub, BitVec.toNat_ofNat]
  omega

theorem substr_eq (src : Text) (b e : Nat) : substr src b (e - b) = textOfRange src b e := by
  unfold substr textOfRange
  rw [List.drop_take]

/-- C33: never more than 36 characters (whatever the locations are). -/
theorem C33_bounded (src : Text) (b last len : Nat) :
    (infoForRange src b last len).snippet.length ≤ 36 := by
  have hs : snipText.length = 16 := rfl
  simp only [infoForRange, snippet, substr]
  by_cases h : rangeLength b last len ≤ snipText.length + 2 * 10
  · rw [if_pos h, List.length_take]
    omega
  · rw [if_neg h]
    simp only [List.length_append, List.length_take]
    omega

/-- C33: a range of at most 36 characters is reported verbatim. -/
theorem C33_short (src : Text) (b last len : Nat) (h : b ≤ last) (hs : last + len < 2 ^ 32)
    (h36 : last + len - b ≤ 36) :
    (infoForRange src b last len).snippet = textOfRange src b (last + len) := by
  simp only [infoForRange, snippet, rangeLength_eq b last len h hs]
  rw [if_pos (by simp only [snipText, List.length_cons, List.length_nil]; omega), substr_eq]

/-- C33: of a longer range the first and last 10 characters are reported. -/
theorem C33_long (src : Text) (b last len : Nat) (h : b ≤ last) (hs : last + len < 2 ^ 32)
    (hl : last + len ≤ src.length) (h36 : 36 < last + len - b) :
    (infoForRange src b last len).snippet =
      (textOfRange src b (last + len)).take 10 ++ t!" ... [snip] ... " ++
        (textOfRange src b (last + len)).drop ((textOfRange src b (last + len)).length - 10) := by
  have hlen : (textOfRange src b (last + len)).length = last + len - b := by
    simp only [textOfRange, List.length_drop, List.length_take]
    omega
  rw [hlen]
  simp only [infoForRange, snippet, rangeLength_eq b last len h hs]
  rw [if_neg (by simp only [snipText, List.length_cons, List.length_nil]; omega)]
  congr 1
  · congr 1
    unfold substr textOfRange
    rw [List.drop_take, List.take_take]
    congr 1
    omega
  · unfold substr textOfRange
    rw [List.drop_drop, List.drop_take]
    have e1 : b + (last + len - b - 10) = last + len - 10 := by omega
    have e2 : b + (last + len - b) - 10 = last + len - 10 := by omega
    rw [e1, e2]
    congr 1
    omega

/-- A range of 43 characters. -/
example : let src := t!"int main() { return first_operand + some_other_function(second_operand); }"
    (infoForRange src 20 70 1).snippet = t!"first_oper ... [snip] ... d_operand)" ∧
    (infoForRange src 20 36 19).snippet = t!"first_operand + some_other_function" := by
  decide

/-- Order of positions in a file. -/
def Loc.before (p q : Loc) : Prop := p.line < q.line ∨ (p.line = q.line ∧ p.column < q.column)

/-- C34: every range that ends after its start is accepted. -/
theorem C34_accepts (start last : Loc) (len : Nat)
    (h : start.before ⟨last.line, last.column + len⟩) : consistent start last len = true := by
  unfold consistent
  simp only [Bool.or_eq_true, decide_eq_true_eq]
  rcases h with h | h
  · exact .inl h
  · exact .inr h.2

/-- C34: an accepted range does not end before its start, provided that it does
not end on an earlier line.  (The statement without this condition is false, see
`C34_earlier_line_false`.) -/
theorem C34_rejects_partial (start last : Loc) (len : Nat)
    (h : consistent start last len = true) (hl : start.line ≤ last.line) :
    start.before ⟨last.line, last.column + len⟩ := by
  unfold consistent at h
  simp only [Bool.or_eq_true, decide_eq_true_eq] at h
  unfold Loc.before
  simp only
  omega

/-- The condition is needed: a range from line 5, column 3 to line 2, column 9 is
accepted although it ends before it starts. -/
theorem C34_earlier_line_false :
    ¬ ∀ (start last : Loc) (len : Nat), consistent start last len = true →
      start.before ⟨last.line, last.column + len⟩ := by
  intro h
  have := h ⟨5, 3⟩ ⟨2, 8⟩ 1 (by decide)
  revert this
  unfold Loc.before
  decide

/-- In a file, a range that ends at the same offset or later is accepted: lines and
columns agree with offsets. -/
theorem C34_offsets (src : Text) (b last len : Nat) (h : b ≤ last) (hl : 0 < len) :
    consistent ⟨lineOf src b, columnOf src b⟩ ⟨lineOf src last, columnOf src last⟩ len = true := by
  apply C34_accepts
  unfold Loc.before
  obtain ⟨d, rfl⟩ := Nat.le.dest h
  have ht : src.take (b + d) = src.take b ++ (src.drop b).take d := List.take_add
  simp only [lineOf, columnOf]
  rw [ht]
  by_cases hn : '\n' ∈ (src.drop b).take d
  · left
    have := List.count_pos_iff.2 hn
    simp only [List.count_append]
    omega
  · right
    refine ⟨by simp [List.count_append, List.count_eq_zero.2 hn], ?_⟩
    have hall : ∀ c ∈ ((src.drop b).take d).reverse, (c != '\n') = true := by
      intro c hc
      simp only [bne_iff_ne, ne_eq]
      rintro rfl
      exact hn (List.mem_reverse.1 hc)
    rw [List.reverse_append, List.takeWhile_append_of_pos hall]
    simp only [List.length_append]
    omega

end Dredd
