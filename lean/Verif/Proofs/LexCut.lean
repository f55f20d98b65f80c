/-
Texts cut where a lexeme ends, and the character before such a place.
-/
import Verif.Proofs.LexFile
import Verif.Model.TextFacts

namespace Dredd

theorem Chained.right {xs ys : List Lexeme} (h : Chained (xs ++ ys)) : Chained ys := by
  induction xs with
  | nil => exact h
  | cons x xs ih =>
    cases hx : xs ++ ys with
    | nil => rw [(List.append_eq_nil_iff.1 hx).2]; trivial
    | cons y r =>
      rw [List.cons_append, hx] at h
      exact ih (hx ▸ h.2)

theorem Chained.left {xs ys : List Lexeme} (h : Chained (xs ++ ys)) : Chained xs := by
  induction xs with
  | nil => trivial
  | cons x xs ih =>
    cases xs with
    | nil => trivial
    | cons y r => exact ⟨h.1, ih h.2⟩

/-- Lexemes that do not go together are those of their text. -/
theorem lexemes_lexText (L : List Lexeme) (hs : ∀ x ∈ L, Single x) (hc : Chained L) :
    lexemes (lexText L) = L ∧ endSt (lexText L) = L.getLast?.map (·.1) := by
  induction L with
  | nil => exact ⟨rfl, rfl⟩
  | cons x L ih =>
    have hx := hs x List.mem_cons_self
    obtain ⟨i1, i2⟩ := ih (fun y hy => hs y (List.mem_cons_of_mem _ hy)) (Chained.right (xs := [x]) hc)
    have hg : ∀ c cs, lexText L = c :: cs → Ok (endSt x.2) c := by
      intro c cs h y hy
      rw [hx.2.2, Option.some.injEq] at hy
      subst hy
      cases L with
      | nil => cases h
      | cons y L =>
        obtain ⟨hne, -, -⟩ := hs y (by simp)
        cases hy : y.2 with
        | nil => exact absurd hy hne
        | cons d ds =>
          rw [lexText_cons, hy, List.cons_append, List.cons.injEq] at h
          exact hc.1 c ds (by rw [hy, h.1])
    obtain ⟨g1, g2⟩ := lexemes_glue hg
    rw [lexText_cons, g1, g2, i1, i2, hx.2.1, hx.2.2]
    refine ⟨rfl, ?_⟩
    cases L with
    | nil => rfl
    | cons y L =>
      rw [if_neg, List.getLast?_cons_cons]
      obtain ⟨hne, -, -⟩ := hs y (by simp)
      simp [hne]

/-- A text cut where the lexeme `x` ends: it is the last one of the first part. -/
theorem EndsAt.cut {src : Text} {p : Nat} {x : Lexeme} (h : EndsAt src p x) :
    ∃ pre suf, lexemes src = pre ++ x :: suf ∧ src.take p = lexText (pre ++ [x]) ∧
      src.drop p = lexText suf ∧ lexemes (src.take p) = pre ++ [x] ∧ endSt (src.take p) = some x.1 ∧
      lexemes (src.drop p) = suf := by
  obtain ⟨q, hq, rfl⟩ := h
  obtain ⟨pre, suf, h1, h2⟩ := placed_split hq
  have htext := lexemes_text src
  rw [h1] at htext
  have e : lexText (pre ++ x :: suf) = lexText (pre ++ [x]) ++ lexText suf := by simp [lexText]
  have hlen : q + x.2.length = (lexText (pre ++ [x])).length := by
    rw [h2]; simp [lexText]
  have e1 : src.take (q + x.2.length) = lexText (pre ++ [x]) := by
    rw [hlen, ← htext, e, List.take_left']
    rfl
  have e2 : src.drop (q + x.2.length) = lexText suf := by
    rw [hlen, ← htext, e, List.drop_left']
    rfl
  have hsing : ∀ y ∈ pre ++ x :: suf, Single y := by
    intro y hy; exact lexemes_single src y (h1 ▸ hy)
  have hch : Chained (pre ++ x :: suf) := h1 ▸ lexemes_chained src
  have e3 : pre ++ x :: suf = (pre ++ [x]) ++ suf := by simp
  obtain ⟨l1, l2⟩ := lexemes_lexText (pre ++ [x])
    (fun y hy => hsing y (by rw [e3]; exact List.mem_append_left _ hy)) (Chained.left (e3 ▸ hch))
  obtain ⟨l3, -⟩ := lexemes_lexText suf
    (fun y hy => hsing y (by rw [e3]; exact List.mem_append_right _ hy)) (Chained.right (e3 ▸ hch))
  refine ⟨pre, suf, h1, e1, e2, by rw [e1, l1], by rw [e1, l2]; simp, by rw [e2, l3]⟩

/-- A word ends with a letter, a digit or an underscore. -/
theorem lexFrom_wordEnd (s : Lexing) (u t : Text)
    (h : s = .word → ∃ c, u.getLast? = some c ∧ wordChar c = true) :
    ∀ x ∈ lexFrom s u t, x.1 = .word → ∃ c, x.2.getLast? = some c ∧ wordChar c = true := by
  induction t generalizing s u with
  | nil => intro x hx; rw [List.mem_singleton.1 hx]; exact h
  | cons c cs ih =>
    have hstart : Lexing.start c = .word → ∃ d, [c].getLast? = some d ∧ wordChar d = true := by
      intro h
      refine ⟨c, rfl, ?_⟩
      unfold Lexing.start at h
      split at h <;> try cases h
      split at h <;> try cases h
      split at h
      · assumption
      · split at h <;> cases h
    intro x hx
    simp only [lexFrom] at hx
    cases hm : s.more c with
    | some s' =>
      rw [hm] at hx
      refine ih s' _ ?_ x hx
      rintro rfl
      refine ⟨c, by simp, ?_⟩
      cases s <;> simp only [Lexing.more] at hm <;> (repeat' split at hm) <;> first | (cases hm; done) | assumption | skip
    | none =>
      rw [hm] at hx
      rcases List.mem_cons.1 hx with rfl | hx
      · exact h
      · exact ih _ _ hstart x hx

theorem lexemes_wordEnd (t : Text) :
    ∀ x ∈ lexemes t, x.1 = .word → ∃ c, x.2.getLast? = some c ∧ wordChar c = true := by
  cases t with
  | nil => intro x hx; cases hx
  | cons c cs =>
    refine lexFrom_wordEnd _ _ _ ?_
    intro h
    refine ⟨c, rfl, ?_⟩
    unfold Lexing.start at h
    split at h <;> try cases h
    split at h <;> try cases h
    split at h
    · assumption
    · split at h <;> cases h

theorem precedingIsIdent_iff (src : Text) (off : Nat) (h : off ≤ src.length) :
    precedingIsIdent src off = true ↔ ∃ c, (src.take off).getLast? = some c ∧ wordChar c = true := by
  cases off with
  | zero => simp [precedingIsIdent]
  | succ n =>
    have e : (src.take (n + 1)).getLast? = src[n]? := by
      rw [List.getLast?_eq_getElem?, List.length_take, Nat.min_eq_left h]
      simp
    rw [e]
    have hn : n < src.length := by omega
    simp only [precedingIsIdent, List.getElem?_eq_getElem hn, Option.some.injEq, exists_eq_left', wordChar]
    cases src[n].isAlphanum <;> simp

/-- The character before a place where a lexeme ends is the last one of the lexeme. -/
theorem EndsAt.preceding {src : Text} {p : Nat} {x : Lexeme} (h : EndsAt src p x) :
    precedingIsIdent src p = true ↔ ∃ c, x.2.getLast? = some c ∧ wordChar c = true := by
  have hne : x.2 ≠ [] := by
    obtain ⟨q, hq, -⟩ := h
    exact (lexemes_single src _ (placed_mem hq)).1
  obtain ⟨pre, suf, h1, h2, h3, -⟩ := h.cut
  have hle : p ≤ src.length := by
    obtain ⟨q, hq, rfl⟩ := h
    have := (placed_range hq).2
    rw [lexemes_text] at this
    omega
  rw [precedingIsIdent_iff _ _ hle, h2]
  have : (lexText (pre ++ [x])).getLast? = x.2.getLast? := by
    simp only [lexText, List.flatMap_append, List.flatMap_cons, List.flatMap_nil, List.append_nil]
    rw [List.getLast?_append]
    cases hx : x.2.getLast? with
    | none => exact absurd (List.getLast?_eq_none_iff.1 hx) hne
    | some c => rfl
  rw [this]

end Dredd
