/-
What follows a statement ends where a lexeme ends.
-/
import Verif.Proofs.LexCut
import Verif.Proofs.StmtEnd
import Verif.Spec.TextRead

namespace Dredd

/-- The end of a lexeme in the rest of a text. -/
theorem EndsAt.shift {w t : Text} {L : List Lexeme} (hL : lexemes (w ++ t) = L ++ lexemes t)
    (hw : lexText L = w) {n : Nat} {x : Lexeme} (h : EndsAt t n x) : EndsAt (w ++ t) (w.length + n) x := by
  obtain ⟨q, hq, rfl⟩ := h
  refine ⟨w.length + q, ?_, by omega⟩
  unfold places at hq ⊢
  rw [hL, placed_append, hw, List.mem_append]
  right
  have : ∀ (o k : Nat) (M : List Lexeme), (q, x) ∈ placed o M → (k + q, x) ∈ placed (k + o) M := by
    intro o k M
    induction M generalizing o with
    | nil => intro h; cases h
    | cons y M ih =>
      intro h
      rcases List.mem_cons.1 h with h | h
      · cases h; exact List.mem_cons_self
      · exact List.mem_cons_of_mem _ (by rw [Nat.add_assoc]; exact ih _ h)
  simpa using this 0 w.length _ hq

theorem EndsAt.trans {t : Text} {n m : Nat} {x y : Lexeme} (hx : EndsAt t n x)
    (hy : EndsAt (t.drop n) m y) : EndsAt t (n + m) y := by
  obtain ⟨pre, suf, h1, h2, h3, h4, -, h6⟩ := hx.cut
  have hle : n ≤ t.length := by
    obtain ⟨q, hq, rfl⟩ := hx
    have := (placed_range hq).2
    rw [lexemes_text] at this
    omega
  have := EndsAt.shift (w := t.take n) (t := t.drop n) (L := pre ++ [x])
    (by rw [List.take_append_drop, h1, h6]; simp) h2.symm hy
  rw [List.take_append_drop, List.length_take, Nat.min_eq_left hle] at this
  exact this

/-! ### White space -/

theorem lexemes_white {c : Char} (h : c.isWhitespace = true) (cs : Text) :
    lexemes (c :: cs) = (.white, [c]) :: lexemes cs := by
  have : Lexing.start c = .white := by simp [Lexing.start, h]
  simp only [lexemes, this]
  cases cs <;> rfl

theorem lexemes_whites (w t : Text) (h : ∀ c ∈ w, c.isWhitespace = true) :
    lexemes (w ++ t) = w.map (fun c => (.white, [c])) ++ lexemes t ∧
      lexText (w.map (fun c => ((.white, [c]) : Lexeme))) = w := by
  induction w with
  | nil => exact ⟨rfl, rfl⟩
  | cons c w ih =>
    obtain ⟨h1, h2⟩ := ih fun d hd => h d (List.mem_cons_of_mem _ hd)
    rw [List.cons_append, lexemes_white (h c List.mem_cons_self), h1]
    exact ⟨rfl, by rw [List.map_cons, lexText_cons, h2]; rfl⟩

theorem space_white {c : Char} (h1 : c ≠ '\x0b') (h2 : c ≠ '\x0c') (h : isSpaceChar c = true) :
    c.isWhitespace = true := by
  simp only [isSpaceChar, Bool.or_eq_true, beq_iff_eq, h1, h2, or_false] at h
  rcases h with ((rfl | rfl) | rfl) | rfl <;> decide

/-! ### Comments -/

theorem lexFrom_line (u t : Text) :
    lexFrom .line u t = (.line, u ++ t.takeWhile (· != '\n')) :: lexemes (t.dropWhile (· != '\n')) := by
  induction t generalizing u with
  | nil => simp [lexFrom, lexemes]
  | cons c cs ih =>
    by_cases hc : c = '\n'
    · subst hc
      simp [lexFrom, Lexing.more, lexemes]
    · simp [lexFrom, Lexing.more, hc, ih]

theorem lineCommentLen_eq (esc : Bool) (t : Text) (h : noSplice esc t = true) :
    lineCommentLen esc t = (t.takeWhile (· != '\n')).length := by
  induction t generalizing esc with
  | nil => rfl
  | cons c cs ih =>
    by_cases hc : c = '\n'
    · subst hc
      simp only [noSplice, if_true, Bool.and_eq_true, Bool.not_eq_true'] at h
      simp [lineCommentLen, h.1]
    · simp only [noSplice, hc, if_false] at h
      simp [lineCommentLen, hc, ih _ h]
      omega

theorem lexFrom_blockLen (star : Bool) (u t : Text) (n : Nat) (h : blockCommentLen t = some n)
    (hs : star = true → t.head? ≠ some '/') :
    lexFrom (.block star) u t = (.comment, u ++ t.take n) :: lexemes (t.drop n) ∧ n ≤ t.length := by
  induction t generalizing star u n with
  | nil => cases h
  | cons c cs ih =>
    have hm : (star && c == '/') = false := by
      cases star with
      | false => rfl
      | true => have := hs rfl; simpa using this
    simp only [lexFrom, Lexing.more, hm, Bool.false_eq_true, if_false]
    by_cases hc : c = '*' ∧ cs.head? = some '/'
    · obtain ⟨rfl, hc⟩ := hc
      cases cs with
      | nil => cases hc
      | cons d ds =>
        simp only [List.head?_cons, Option.some.injEq] at hc
        subst hc
        simp only [blockCommentLen, List.head?_cons, and_self, if_true, Option.some.injEq] at h
        subst h
        simp only [lexFrom, Lexing.more, beq_self_eq_true, Bool.and_self, if_true]
        refine ⟨?_, by simp⟩
        cases ds <;> simp [lexFrom, Lexing.more, lexemes]
    · simp only [blockCommentLen, hc, if_false, Option.map_eq_some_iff] at h
      obtain ⟨k, hk, rfl⟩ := h
      obtain ⟨i1, i2⟩ := ih (c == '*') (u ++ [c]) k hk (by
        intro h1 h2
        exact hc ⟨by simpa using h1, h2⟩)
      exact ⟨by simp [i1], by simp; omega⟩

theorem noSplice_weaken {esc : Bool} {t : Text} (h : noSplice esc t = true) : noSplice false t = true := by
  induction t generalizing esc with
  | nil => rfl
  | cons c cs ih =>
    by_cases hc : c = '\n'
    · simp only [noSplice, hc, if_true, Bool.and_eq_true] at h ⊢
      exact ⟨rfl, h.2⟩
    · simp only [noSplice, hc, if_false] at h ⊢
      by_cases hb : isBlankChar c = true
      · simp only [hb, if_true] at h ⊢; exact ih h
      · simpa [hb] using h

theorem noSplice_tail {c : Char} {t : Text} (h : noSplice false (c :: t) = true) : noSplice false t = true := by
  by_cases hc : c = '\n'
  · simp only [noSplice, hc, if_true, Bool.and_eq_true] at h
    exact h.2
  · simp only [noSplice, hc, if_false] at h
    exact noSplice_weaken h

theorem PlainLines.tail {c : Char} {t : Text} (h : PlainLines (c :: t)) : PlainLines t :=
  ⟨fun hm => h.1 (List.mem_cons_of_mem _ hm), fun hm => h.2.1 (List.mem_cons_of_mem _ hm), noSplice_tail h.2.2⟩

theorem PlainLines.drop {t : Text} (h : PlainLines t) (n : Nat) : PlainLines (t.drop n) := by
  induction n generalizing t with
  | zero => exact h
  | succ n ih =>
    cases t with
    | nil => exact h
    | cons c cs => exact ih h.tail

/-! ### The tokens that are looked at -/

theorem rawHere_endsComment {t : Text} (h : PlainLines t) {n : Nat} (hr : rawHere t = (.comment, n)) :
    ∃ x, EndsAt t n x ∧ (x.1 = .line ∨ x.1 = .comment) := by
  unfold rawHere at hr
  split at hr
  · rename_i cs
    injection hr with _ hr
    have hs : noSplice false cs = true := noSplice_tail (noSplice_tail h.2.2)
    have e : lexemes ('/' :: '/' :: cs) = lexFrom .line t!"//" cs := rfl
    rw [lexFrom_line] at e
    refine ⟨(.line, t!"//" ++ cs.takeWhile (· != '\n')), ⟨0, ?_, ?_⟩, .inl rfl⟩
    · rw [places, e]; exact List.mem_cons_self
    · rw [← hr, lineCommentLen_eq _ _ hs]; simp; omega
  · rename_i cs
    split at hr
    · rename_i k hk
      injection hr with _ hr
      obtain ⟨e1, e2⟩ := lexFrom_blockLen false t!"/*" cs k hk (by simp)
      have e : lexemes ('/' :: '*' :: cs) = lexFrom (.block false) t!"/*" cs := rfl
      rw [e1] at e
      refine ⟨(.comment, t!"/*" ++ cs.take k), ⟨0, ?_, ?_⟩, .inr rfl⟩
      · rw [places, e]; exact List.mem_cons_self
      · rw [← hr]; simp; omega
    · cases hr
  all_goals cases hr

theorem rawHere_endsSemi {t : Text} {n : Nat} (hr : rawHere t = (.semi, n)) :
    ∃ x, EndsAt t n x ∧ x.1.isWhole = true := by
  unfold rawHere at hr
  split at hr
  · cases hr
  · split at hr <;> cases hr
  · rename_i cs
    injection hr with _ hr
    subst hr
    have hd := done_start (c := ';') (by decide)
    have e : lexemes (';' :: cs) = (.punct t!";", t!";") :: lexemes cs := by
      have hst : Lexing.start ';' = .punct t!";" := by decide
      rw [hst] at hd
      simp only [lexemes, hst]
      cases cs with
      | nil => rfl
      | cons d ds => simp only [lexFrom, hd d]
    refine ⟨(.punct t!";", t!";"), ⟨0, ?_, rfl⟩, rfl⟩
    rw [places, e]; exact List.mem_cons_self
  all_goals cases hr

theorem rawNext_ends {t : Text} (h : PlainLines t) {P : Lexeme → Prop} {k : RawKind} {n : Nat}
    (hr : rawNext t = (k, n))
    (hP : ∀ t', PlainLines t' → ∀ m, rawHere t' = (k, m) → ∃ x, EndsAt t' m x ∧ P x) :
    ∃ x, EndsAt t n x ∧ P x := by
  have hw : ∀ c ∈ t.takeWhile isSpaceChar, c.isWhitespace = true := by
    intro c hc
    have hmem : c ∈ t := (List.takeWhile_sublist _).subset hc
    refine space_white (fun h' => h.1 (h' ▸ hmem)) (fun h' => h.2.1 (h' ▸ hmem)) ?_
    have hall : ∀ l : Text, (l.takeWhile isSpaceChar).all isSpaceChar = true := by
      intro l
      induction l with
      | nil => rfl
      | cons d l ih => by_cases hd : isSpaceChar d = true <;> simp [hd, ih]
    exact List.all_eq_true.1 (hall t) c hc
  have ht : t.takeWhile isSpaceChar ++ t.dropWhile isSpaceChar = t := List.takeWhile_append_dropWhile
  have hd : PlainLines (t.dropWhile isSpaceChar) := by
    have : t.dropWhile isSpaceChar = t.drop (t.takeWhile isSpaceChar).length := by
      have := List.drop_left' (l₁ := t.takeWhile isSpaceChar) (l₂ := t.dropWhile isSpaceChar) rfl
      rw [ht] at this
      exact this.symm
    rw [this]
    exact h.drop _
  simp only [rawNext, Prod.mk.injEq] at hr
  obtain ⟨x, hx, hp⟩ := hP _ hd (rawHere (t.dropWhile isSpaceChar)).2 (by rw [← hr.1])
  obtain ⟨l1, l2⟩ := lexemes_whites _ (t.dropWhile isSpaceChar) hw
  have := EndsAt.shift l1 l2 hx
  rw [ht, hr.2] at this
  exact ⟨x, this, hp⟩

theorem extendComments_ends (fuel : Nat) {t : Text} (h : PlainLines t) {n : Nat} {b : Bool}
    (he : extendComments fuel t = (n, b)) :
    (b = false → n = 0) ∧ (b = true → ∃ x, EndsAt t n x ∧ (x.1 = .line ∨ x.1 = .comment)) := by
  induction fuel generalizing t n b with
  | zero => simp only [extendComments, Prod.mk.injEq] at he; simp [← he.1, ← he.2]
  | succ fuel ih =>
    unfold extendComments at he
    split at he
    · rename_i k hk
      injection he with h1 h2
      subst h2
      refine ⟨by simp, fun _ => ?_⟩
      obtain ⟨x, hx, hp⟩ := rawNext_ends h hk fun t' ht' m hm => rawHere_endsComment ht' hm
      obtain ⟨i1, i2⟩ := ih (h.drop k) (n := (extendComments fuel (t.drop k)).1)
        (b := (extendComments fuel (t.drop k)).2) rfl
      cases hb : (extendComments fuel (t.drop k)).2 with
      | false => rw [i1 hb] at h1; rw [← h1]; exact ⟨x, hx, hp⟩
      | true =>
        obtain ⟨y, hy, hq⟩ := i2 hb
        rw [← h1]
        exact ⟨y, hx.trans hy, hq⟩
    · injection he with h1 h2
      subst h1; subst h2
      simp

/-- What follows a statement ends with a token, or with a comment if there is no semicolon. -/
theorem stmtEnd_ends {src : Text} {p : Nat} (h : PlainLines src) (hp : Ends src p) :
    let e := stmtEnd (src.drop p)
    Ends src (p + e.len) ∨ (e.comment = true ∧ e.semi = false ∧
      ∃ x, EndsAt src (p + e.len) x ∧ (x.1 = .line ∨ x.1 = .comment)) := by
  obtain ⟨z, hz, hzw⟩ := hp
  generalize ht : src.drop p = t
  have hpl : PlainLines t := ht ▸ h.drop p
  simp only
  rcases hx : extendComments t.length t with ⟨n, b⟩
  obtain ⟨e1, e2⟩ := extendComments_ends _ hpl hx
  rcases hr : rawNext (t.drop n) with ⟨k, m⟩
  by_cases hk : k = .semi
  · subst hk
    obtain ⟨g1, -, -⟩ := stmtEnd_semi hx hr
    obtain ⟨x, hx', hw⟩ := rawNext_ends (hpl.drop n) hr fun t' _ m hm => rawHere_endsSemi hm
    rw [g1]
    left
    cases b with
    | false =>
      have := e1 rfl
      subst this
      refine ⟨x, ?_, hw⟩
      rw [Nat.zero_add]
      exact hz.trans (ht ▸ hx')
    | true =>
      obtain ⟨y, hy, -⟩ := e2 rfl
      exact ⟨x, hz.trans (ht ▸ hy.trans hx'), hw⟩
  · obtain ⟨g1, g2, g3, -⟩ := stmtEnd_other hx (by rw [hr]; exact hk)
    rw [g1, g2, g3]
    cases b with
    | false =>
      rw [e1 rfl]
      exact .inl ⟨z, hz, hzw⟩
    | true =>
      obtain ⟨y, hy, hq⟩ := e2 rfl
      exact .inr ⟨rfl, rfl, y, hz.trans (ht ▸ hy), hq⟩

end Dredd
