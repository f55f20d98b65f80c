/-
C36: the query script extracts exactly the text of the reported range.
C38: path prefix replacement finds the original file.
-/
import Verif.Proofs.Lines
import Verif.Props.C33

namespace Dredd

open Query

theorem universal_eq (src : Text) (h : '\r' ∉ src) : universal src = src := by
  induction src with
  | nil => rfl
  | cons c cs ih =>
    simp only [List.mem_cons, not_or] at h
    rw [universal]
    · rw [ih h.2]
    · rintro cs' rfl; exact absurd rfl h.1
    · rintro rfl; exact absurd rfl h.1

/-- A token without line break: positions after it are on the same line. -/
theorem after_token (src : Text) (last len : Nat) (h : '\n' ∉ textOfRange src last (last + len))
    (hl : last + len ≤ src.length) :
    lineOf src (last + len) = lineOf src last ∧
      columnOf src (last + len) = columnOf src last + len := by
  have ht : src.take (last + len) = src.take last ++ textOfRange src last (last + len) := by
    rw [textOfRange, List.drop_take, Nat.add_sub_cancel_left, List.take_add]
  have hlen : (textOfRange src last (last + len)).length = len := by
    simp only [textOfRange, List.length_drop, List.length_take]
    omega
  have hall : ∀ c ∈ (textOfRange src last (last + len)).reverse, (c != '\n') = true := by
    intro c hc
    simp only [bne_iff_ne, ne_eq]
    rintro rfl
    exact h (List.mem_reverse.1 hc)
  constructor
  · rw [lineOf, ht, List.count_append, List.count_eq_zero.2 h, lineOf, Nat.add_zero]
  · rw [columnOf, ht, List.reverse_append, List.takeWhile_append_of_pos hall, List.length_append,
      List.length_reverse, hlen, columnOf]
    omega

/-- C36: for every text with line ends `\\n`, every range that begins at offset `b` and
whose last token is at offset `last` and has length `len`, the text the script
shows for the reported lines and columns is the text of the range, provided that the
last token has no line break.  (Without this condition the statement is false, see
`C36_multiline_token_false`.) -/
theorem C36_text_partial (src : Text) (b last len : Nat) (hb : b ≤ last) (hlen : 0 < len)
    (hl : last + len ≤ src.length) (hr : '\r' ∉ src)
    (htok : '\n' ∉ textOfRange src last (last + len)) :
    ∃ r, textForRange src (infoForRange src b last len).start (infoForRange src b last len).fin
      = some r ∧ r.text = textOfRange src b (last + len) := by
  obtain ⟨h1, h2⟩ := after_token src last len htok hl
  obtain ⟨single, blank, h⟩ := lines_between src b (last + len) (by omega) hl
    (by rw [h2, columnOf]; omega) (universal_eq src hr)
  refine ⟨⟨single, blank, textOfRange src b (last + len)⟩, ?_, rfl⟩
  simp only [infoForRange, ← h1, ← h2]
  exact h

/-- For texts of at most 36 characters this is the reported snippet. -/
theorem C36_snippet (src : Text) (b last len : Nat) (hb : b ≤ last) (hlen : 0 < len)
    (hl : last + len ≤ src.length) (hr : '\r' ∉ src) (h32 : src.length < 2 ^ 32)
    (htok : '\n' ∉ textOfRange src last (last + len)) (h36 : last + len - b ≤ 36) :
    ∃ r, textForRange src (infoForRange src b last len).start (infoForRange src b last len).fin
      = some r ∧ r.text = (infoForRange src b last len).snippet := by
  obtain ⟨r, h1, h2⟩ := C36_text_partial src b last len hb hlen hl hr htok
  exact ⟨r, h1, by rw [h2, C33_short src b last len hb (by omega) h36]⟩

/-- A range over three lines. -/
example : let src := t!"int f() {\n  return a +\n   b *\n c;\n}\n"
    (infoForRange src 19 31 1).start = ⟨2, 10⟩ ∧ (infoForRange src 19 31 1).fin = ⟨4, 3⟩ ∧
    textForRange src ⟨2, 10⟩ ⟨4, 3⟩ = some ⟨false, t!"         ", t!"a +\n   b *\n c"⟩ := by
  decide +kernel

/-- The condition on the last token is needed: a call `f(…)` ends with a
parenthesis, but an expression can end with a raw string literal (or a literal
with a continued line) that spans lines.  The reported end column then lies beyond the
end of the line on which the token begins, and the script shows a truncated text. -/
theorem C36_multiline_token_false :
    ¬ ∀ (src : Text) (b last len : Nat), b ≤ last → 0 < len → last + len ≤ src.length →
      '\r' ∉ src →
      ∃ r, textForRange src (infoForRange src b last len).start
        (infoForRange src b last len).fin = some r ∧ r.text = textOfRange src b (last + len) := by
  intro h
  obtain ⟨r, h1, h2⟩ := h t!"g(1 + *R\"(a\nb)\");" 2 7 8 (by decide) (by decide) (by decide)
    (by decide)
  have hc : textForRange t!"g(1 + *R\"(a\nb)\");"
      (infoForRange t!"g(1 + *R\"(a\nb)\");" 2 7 8).start
      (infoForRange t!"g(1 + *R\"(a\nb)\");" 2 7 8).fin = some ⟨true, [], t!"1 + *R\"(a\n"⟩ := by
    decide +kernel
  rw [hc] at h1
  cases h1
  revert h2
  decide +kernel

/-- C38: if `pathlib` leaves the prefixes as they are, the file `P/rest` is looked up as
`Q/rest`.  (Without this condition the statement is false, see
`C38_unnormalised_false`.) -/
theorem C38_partial (P Q rest : Text) (hP : pathStr P = P) (hQ : pathStr Q = Q) :
    originalFile P Q (P ++ t!"/" ++ rest) = Q ++ t!"/" ++ rest := by
  unfold originalFile
  have h : (P ++ t!"/" ++ rest).drop P.length = '/' :: rest := by
    rw [List.append_assoc, List.drop_left' rfl]
    rfl
  simp only [hP, hQ, h]
  rfl

/-- The same for the root directory. -/
theorem C38_root_partial (Q rest : Text) (hQ : pathStr Q = Q) (hr : rest.head? ≠ some '/') :
    originalFile t!"/" Q (t!"/" ++ rest) = Q ++ t!"/" ++ rest := by
  have hp : pathStr t!"/" = t!"/" := by decide
  unfold originalFile
  rw [hp, hQ]
  have : (t!"/" ++ rest).drop t!"/".length = rest := rfl
  simp only [this, if_neg hr]

/-- A proper part of a path. -/
def Part (p : Text) : Prop := p ≠ [] ∧ p ≠ t!"." ∧ '/' ∉ p

theorem splitSlash_part (p : Text) (h : '/' ∉ p) : splitSlash p = [p] := by
  induction p with
  | nil => rfl
  | cons c cs ih =>
    simp only [List.mem_cons, not_or] at h
    rw [splitSlash, if_neg (fun e => h.1 e.symm), ih h.2]

theorem splitSlash_append (p x : Text) (h : '/' ∉ p) :
    splitSlash (p ++ '/' :: x) = p :: splitSlash x := by
  induction p with
  | nil => simp [splitSlash]
  | cons c cs ih =>
    simp only [List.mem_cons, not_or] at h
    rw [List.cons_append, splitSlash, if_neg (fun e => h.1 e.symm), ih h.2]

theorem splitSlash_join (ps : List Text) (hne : ps ≠ []) (h : ∀ p ∈ ps, '/' ∉ p) :
    splitSlash (joinSlash ps) = ps := by
  induction ps with
  | nil => exact absurd rfl hne
  | cons p ps ih =>
    cases ps with
    | nil => exact splitSlash_part p (h p (.head _))
    | cons r rs =>
      rw [joinSlash, splitSlash_append p _ (h p (.head _)),
        ih (by simp) (fun q hq => h q (.tail _ hq))]
      simp

theorem filter_parts (ps : List Text) (h : ∀ p ∈ ps, Part p) :
    ps.filter (fun x => x ≠ [] ∧ x ≠ t!".") = ps := by
  rw [List.filter_eq_self]
  intro p hp
  obtain ⟨h1, h2, _⟩ := h p hp
  simp [h1, h2]

theorem joinSlash_head (p : Text) (ps : List Text) (hp : Part p) :
    ∃ c t, c ≠ '/' ∧ joinSlash (p :: ps) = c :: t := by
  obtain ⟨h1, _, h3⟩ := hp
  cases p with
  | nil => exact absurd rfl h1
  | cons c cs =>
    simp only [List.mem_cons, not_or] at h3
    cases ps with
    | nil => exact ⟨c, cs, fun e => h3.1 e.symm, rfl⟩
    | cons q qs => exact ⟨c, cs ++ '/' :: joinSlash (q :: qs), fun e => h3.1 e.symm, rfl⟩

/-- Paths that consist of proper parts, absolute or relative, are left as they are by
`pathlib`; so C38 holds for them. -/
theorem C38_normal_paths (p : Text) (ps : List Text) (h : ∀ x ∈ p :: ps, Part x) :
    pathStr (joinSlash (p :: ps)) = joinSlash (p :: ps) ∧
    pathStr ('/' :: joinSlash (p :: ps)) = '/' :: joinSlash (p :: ps) := by
  have hs := splitSlash_join (p :: ps) (by simp) (fun x hx => (h x hx).2.2)
  have hf := filter_parts (p :: ps) h
  obtain ⟨c, t, hc, ht⟩ := joinSlash_head p ps (h p (.head _))
  constructor
  · unfold pathStr
    rw [hs, hf]
    have hr : pathRoot (joinSlash (p :: ps)) = [] := by
      rw [ht]
      unfold pathRoot
      split <;> simp_all
    rw [hr, List.nil_append, if_neg]
    rw [ht]; simp
  · unfold pathStr
    have h0 : splitSlash ('/' :: joinSlash (p :: ps)) = [] :: (p :: ps) := by
      rw [splitSlash, if_pos rfl, hs]
    rw [h0]
    have hr : pathRoot ('/' :: joinSlash (p :: ps)) = t!"/" := by
      rw [ht]
      unfold pathRoot
      split <;> simp_all
    have hf' : ([] :: p :: ps).filter (fun x : Text => x ≠ [] ∧ x ≠ t!".") = p :: ps := by
      rw [List.filter_cons_of_neg (by simp)]
      exact hf
    simp only [hr, hf']
    simp

theorem splitSlash_slashes (n : Nat) (x : Text) :
    (splitSlash (List.replicate n '/' ++ x)).filter (fun x : Text => x ≠ [] ∧ x ≠ t!".") =
      (splitSlash x).filter (fun x : Text => x ≠ [] ∧ x ≠ t!".") := by
  induction n with
  | zero => rfl
  | succ n ih =>
    rw [List.replicate_succ, List.cons_append, splitSlash, if_pos rfl, List.filter_cons_of_neg (by simp), ih]

/-- C38, the beginning of absolute paths: `pathlib` keeps two slashes, and takes one or more than two for one;
so the file is found under this name. -/
theorem C38_slashes (p : Text) (ps : List Text) (h : ∀ x ∈ p :: ps, Part x) (n : Nat) :
    pathStr (List.replicate (n + 1) '/' ++ joinSlash (p :: ps)) =
      (if n = 1 then t!"//" else t!"/") ++ joinSlash (p :: ps) := by
  have hs := splitSlash_join (p :: ps) (by simp) (fun x hx => (h x hx).2.2)
  obtain ⟨c, t, hc, ht⟩ := joinSlash_head p ps (h p (.head _))
  have hr : pathRoot (List.replicate (n + 1) '/' ++ joinSlash (p :: ps)) = if n = 1 then t!"//" else t!"/" := by
    rw [ht]
    match n with
    | 0 =>
      unfold pathRoot
      split <;> simp_all
    | 1 =>
      show pathRoot ('/' :: '/' :: c :: t) = _
      unfold pathRoot
      split
      · rename_i heq
        simp only [List.cons.injEq, true_and] at heq
        exact absurd heq.1 hc
      · rfl
      · rename_i _ h heq
        simp only [List.cons.injEq, true_and] at heq
        exact absurd heq.symm (h _)
      · rename_i h
        exact absurd rfl (h _)
    | n + 2 => rfl
  unfold pathStr
  simp only [hr, splitSlash_slashes]
  rw [hs, filter_parts _ h, if_neg]
  split <;> simp

/-- C38 for all prefixes, in the form in which `pathlib` writes them: the file that is opened for
`P/rest` is `Q/rest`. -/
theorem C38_paths (P Q rest : Text) :
    originalFile P Q (pathStr P ++ t!"/" ++ rest) = pathStr Q ++ t!"/" ++ rest := by
  unfold originalFile
  have h : (pathStr P ++ t!"/" ++ rest).drop (pathStr P).length = '/' :: rest := by
    rw [List.append_assoc, List.drop_left' rfl]
    rfl
  simp only [h]
  rfl

example : pathStr t!"///a//./b/" = t!"/a/b" ∧ pathStr t!"//a/b" = t!"//a/b" ∧
    originalFile t!"///m//." t!"./o/" t!"/m/s/a.c" = t!"o/s/a.c" := by decide

/-- The condition is needed: with prefix `./m` the file `./m/a.c` is looked up under a
wrong name, because `pathlib` shortens the prefix but the recorded file name is not
shortened. -/
theorem C38_unnormalised_false :
    ¬ ∀ P Q rest : Text, originalFile P Q (P ++ t!"/" ++ rest) = Q ++ t!"/" ++ rest := by
  intro h
  have := h t!"./m" t!"o" t!"a.c"
  revert this
  decide

example : originalFile t!"/home/u/mutated" t!"/home/u/original" t!"/home/u/mutated/src/a.cc"
    = t!"/home/u/original/src/a.cc" := by decide

example : originalFile t!"./m" t!"o" t!"./m/a.c" = t!"o/m/a.c" := by decide

end Dredd
