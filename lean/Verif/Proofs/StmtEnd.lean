/-
What a statement is extended over.
-/
import Verif.Model.StmtEnd
import Verif.Spec.Comments

namespace Dredd

theorem Mode.read_append (m : Mode) (a b : Text) : m.read (a ++ b) = (m.read a).read b := by
  simp [Mode.read]

@[simp] theorem Mode.read_nil (m : Mode) : m.read [] = m := rfl
@[simp] theorem Mode.read_cons (m : Mode) (c : Char) (t : Text) :
    m.read (c :: t) = (m.step c).read t := rfl

theorem Mode.emits_append (m : Mode) (a b : Text) :
    m.emits (a ++ b) = m.emits a ++ (m.read a).emits b := by
  induction a generalizing m with
  | nil => rfl
  | cons c cs ih => simp [Mode.emits, ih]

/-- Nothing but white space is emitted. -/
def Mode.Quiet (m : Mode) (t : Text) : Prop := (m.emits t).filter (fun c => !isWhite c) = []

theorem Mode.Quiet.append {m : Mode} {a b : Text} (ha : m.Quiet a) (hb : (m.read a).Quiet b) :
    m.Quiet (a ++ b) := by
  unfold Mode.Quiet at *
  rw [Mode.emits_append, List.filter_append, ha, hb]
  rfl

theorem isBlankChar_iff (c : Char) :
    isBlankChar c = true ↔ c = ' ' ∨ c = '\t' ∨ c = '\x0b' ∨ c = '\x0c' := by
  simp [isBlankChar, or_assoc]

theorem isSpaceChar_eq (c : Char) : isSpaceChar c = isWhite c := by
  rw [Bool.eq_iff_iff]
  simp [isSpaceChar, isWhite, or_assoc]

/-- A line comment: it is read as one, and ends in front of a newline or at the end of
the text. -/
theorem lineCommentLen_spec (esc : Bool) (t : Text) :
    ∃ e, (Mode.line esc).read (t.take (lineCommentLen esc t)) = .line e ∧
      (Mode.line esc).emits (t.take (lineCommentLen esc t)) = [] ∧
      lineCommentLen esc t ≤ t.length ∧
      (t.drop (lineCommentLen esc t) = [] ∨
        e = false ∧ ∃ r, t.drop (lineCommentLen esc t) = '\n' :: r) := by
  induction t generalizing esc with
  | nil => exact ⟨esc, rfl, rfl, Nat.le_refl _, .inl rfl⟩
  | cons c cs ih =>
    unfold lineCommentLen
    by_cases hc : c = '\n'
    · rw [if_pos hc]
      subst hc
      cases esc with
      | false => exact ⟨false, rfl, rfl, Nat.zero_le _, .inr ⟨rfl, cs, rfl⟩⟩
      | true =>
        obtain ⟨e, h1, h2, h3, h4⟩ := ih false
        refine ⟨e, ?_, ?_, ?_, ?_⟩ <;> rw [if_pos rfl, Nat.add_comm]
        · simpa [Mode.step] using h1
        · simpa [Mode.emits, Mode.step] using h2
        · simpa using h3
        · simpa using h4
    · rw [if_neg hc]
      have hstep : (Mode.line esc).step c
          = .line (if isBlankChar c then esc else c == '\\') := by
        simp only [Mode.step, if_neg hc]
        cases hb : isBlankChar c
        · have : ¬ (c = ' ' ∨ c = '\t' ∨ c = '\x0b' ∨ c = '\x0c') := by
            rw [← isBlankChar_iff, hb]; simp
          rw [if_neg this]
          rfl
        · rw [if_pos ((isBlankChar_iff c).1 hb)]
          rfl
      obtain ⟨e, h1, h2, h3, h4⟩ := ih (if isBlankChar c then esc else c == '\\')
      refine ⟨e, ?_, ?_, ?_, ?_⟩ <;> rw [Nat.add_comm]
      · simpa [hstep] using h1
      · simpa [Mode.emits, hstep] using h2
      · simpa using h3
      · simpa using h4

theorem read_star {c : Char} (t : Text) (h : c ≠ '/') :
    Mode.star.read (c :: t) = Mode.block.read (c :: t) ∧
      Mode.star.emits (c :: t) = Mode.block.emits (c :: t) := by
  have : Mode.star.step c = Mode.block.step c := by
    simp only [Mode.step, if_neg h]
  constructor
  · simp [this]
  · simp only [Mode.emits, this]

theorem emits_block (c : Char) (t : Text) :
    Mode.block.emits (c :: t) = (Mode.block.step c).emits t := by simp [Mode.emits]

/-- A block comment is read as one. -/
theorem blockCommentLen_spec (t : Text) (n : Nat) (h : blockCommentLen t = some n) :
    Mode.block.read (t.take n) = .code ∧ Mode.block.emits (t.take n) = [] ∧ n ≤ t.length ∧ 2 ≤ n := by
  induction t generalizing n with
  | nil => cases h
  | cons c cs ih =>
    unfold blockCommentLen at h
    by_cases hc : c = '*' ∧ cs.head? = some '/'
    · rw [if_pos hc] at h
      cases h
      obtain ⟨rfl, h2⟩ := hc
      cases cs with
      | nil => cases h2
      | cons d ds =>
        simp only [List.head?_cons, Option.some.injEq] at h2
        subst h2
        exact ⟨rfl, rfl, by simp, Nat.le_refl _⟩
    · rw [if_neg hc] at h
      obtain ⟨m, hm, rfl⟩ := Option.map_eq_some_iff.1 h
      obtain ⟨h1, h2, h3, h4⟩ := ih m hm
      refine ⟨?_, ?_, by simpa using h3, by omega⟩
      · cases cs with
        | nil => simp at h3; omega
        | cons d ds =>
          obtain ⟨k, rfl⟩ : ∃ k, m = k + 1 := ⟨m - 1, by omega⟩
          simp only [List.take_succ_cons] at h1 h2 ⊢
          by_cases hs : c = '*'
          · have hd : d ≠ '/' := by
              intro hd
              exact hc ⟨hs, by simp [hd]⟩
            have := (read_star (ds.take k) hd).1
            rw [Mode.read_cons]
            have hst : Mode.block.step c = .star := by simp [Mode.step, hs]
            rw [hst, this, h1]
          · have hst : Mode.block.step c = .block := by simp [Mode.step, hs]
            rw [Mode.read_cons, hst, h1]
      · cases cs with
        | nil => simp at h3; omega
        | cons d ds =>
          obtain ⟨k, rfl⟩ : ∃ k, m = k + 1 := ⟨m - 1, by omega⟩
          simp only [List.take_succ_cons] at h1 h2 ⊢
          by_cases hs : c = '*'
          · have hd : d ≠ '/' := by
              intro hd
              exact hc ⟨hs, by simp [hd]⟩
            have := (read_star (ds.take k) hd).2
            have hst : Mode.block.step c = .star := by simp [Mode.step, hs]
            rw [emits_block, hst, this, h2]
          · have hst : Mode.block.step c = .block := by simp [Mode.step, hs]
            rw [emits_block, hst, h2]

/-- The reader is in code, or at the end of a line comment that is followed by a
newline or by the end of the text. -/
def Ready (m : Mode) (t : Text) : Prop :=
  m = .code ∨ ∃ e, m = .line e ∧ (t = [] ∨ e = false ∧ ∃ r, t = '\n' :: r)

theorem read_white {t : Text} (h : ∀ c ∈ t, isWhite c = true) :
    Mode.code.read t = .code ∧ Mode.code.Quiet t := by
  induction t with
  | nil => exact ⟨rfl, rfl⟩
  | cons c cs ih =>
    have hc := h c (List.mem_cons_self ..)
    have ⟨h1, h2⟩ := ih fun d hd => h d (List.mem_cons_of_mem _ hd)
    have hst : Mode.code.step c = .code := by
      simp only [Mode.step]
      rw [if_neg]
      rintro rfl
      revert hc
      decide
    refine ⟨by rw [Mode.read_cons, hst, h1], ?_⟩
    unfold Mode.Quiet at *
    simp [Mode.emits, hst, hc, h2]

/-- White space that is followed by something brings the reader back to code. -/
theorem Ready.white {m : Mode} {t : Text} (h : Ready m t) (hne : t ≠ []) :
    m.read (t.takeWhile isSpaceChar) = .code ∧ m.Quiet (t.takeWhile isSpaceChar) := by
  have hw : ∀ t : Text, ∀ c ∈ t.takeWhile isSpaceChar, isWhite c = true := by
    intro t c hc
    rw [← isSpaceChar_eq]
    exact List.all_eq_true.1 (List.all_takeWhile (l := t) (p := isSpaceChar)) c hc
  rcases h with rfl | ⟨e, rfl, h | ⟨rfl, r, rfl⟩⟩
  · exact read_white (hw t)
  · exact absurd h hne
  · have h1 : ('\n' :: r).takeWhile isSpaceChar = '\n' :: r.takeWhile isSpaceChar := by
      rw [List.takeWhile_cons, if_pos (by decide)]
    rw [h1]
    have := read_white (hw r)
    exact ⟨this.1, this.2⟩


theorem rawHere_comment {u : Text} {n : Nat} (h : rawHere u = (.comment, n)) :
    Ready (Mode.code.read (u.take n)) (u.drop n) ∧ Mode.code.Quiet (u.take n) ∧ 2 ≤ n ∧
      n ≤ u.length := by
  unfold rawHere at h
  split at h
  next cs =>
    simp only [Prod.mk.injEq, true_and] at h
    subst h
    obtain ⟨e, h1, h2, h3, h4⟩ := lineCommentLen_spec false cs
    rw [Nat.add_comm 2]
    simp only [List.take_succ_cons, List.drop_succ_cons]
    refine ⟨.inr ⟨e, ?_, h4⟩, ?_, by omega, by simpa using h3⟩
    · rw [← h1]; rfl
    · have : Mode.code.emits ('/' :: '/' :: cs.take (lineCommentLen false cs)) = [] := by
        rw [← h2]; rfl
      unfold Mode.Quiet
      rw [this]; rfl
  next cs =>
    split at h
    next m hm =>
      simp only [Prod.mk.injEq, true_and] at h
      subst h
      obtain ⟨h1, h2, h3, h4⟩ := blockCommentLen_spec cs m hm
      rw [Nat.add_comm 2]
      simp only [List.take_succ_cons, List.drop_succ_cons]
      refine ⟨.inl ?_, ?_, by omega, by simpa using h3⟩
      · exact h1
      · have : Mode.code.emits ('/' :: '*' :: cs.take m) = [] := by
          rw [← h2]; rfl
        unfold Mode.Quiet
        rw [this]; rfl
    next => simp at h
  all_goals simp at h

theorem rawHere_semi {u : Text} {n : Nat} (h : rawHere u = (.semi, n)) :
    n = 1 ∧ ∃ r, u = ';' :: r := by
  unfold rawHere at h
  split at h
  next => simp at h
  next => split at h <;> simp at h
  next r => simp at h; exact ⟨h.symm, r, rfl⟩
  all_goals simp at h

theorem takeWhile_drop (t : Text) (n : Nat) :
    t.take ((t.takeWhile isSpaceChar).length + n)
      = t.takeWhile isSpaceChar ++ (t.dropWhile isSpaceChar).take n ∧
    t.drop ((t.takeWhile isSpaceChar).length + n) = (t.dropWhile isSpaceChar).drop n := by
  have h := List.takeWhile_append_dropWhile (p := isSpaceChar) (l := t)
  have hl := congrArg List.length h
  rw [List.length_append] at hl
  generalize hx : t.takeWhile isSpaceChar = x at h hl
  generalize hy : t.dropWhile isSpaceChar = y at h hl
  subst h
  constructor
  · rw [List.take_append, List.take_of_length_le (by omega)]
    simp
  · rw [List.drop_append, List.drop_of_length_le (by omega)]
    simp

/-- One comment. -/
theorem rawNext_comment {m : Mode} {t : Text} {n : Nat} (hr : Ready m t)
    (h : rawNext t = (.comment, n)) :
    Ready (m.read (t.take n)) (t.drop n) ∧ m.Quiet (t.take n) ∧ 2 ≤ n ∧ n ≤ t.length := by
  have hne : t ≠ [] := by
    rintro rfl
    simp [rawNext, rawHere] at h
  simp only [rawNext, Prod.mk.injEq] at h
  obtain ⟨hk, rfl⟩ := h
  obtain ⟨h1, h2, h3, h4⟩ := rawHere_comment (u := t.dropWhile isSpaceChar)
    (n := (rawHere (t.dropWhile isSpaceChar)).2) (by rw [← hk])
  obtain ⟨w1, w2⟩ := hr.white hne
  obtain ⟨d1, d2⟩ := takeWhile_drop t (rawHere (t.dropWhile isSpaceChar)).2
  have hl := congrArg List.length (List.takeWhile_append_dropWhile (p := isSpaceChar) (l := t))
  rw [List.length_append] at hl
  rw [d1, d2]
  refine ⟨by rw [Mode.read_append, w1]; exact h1, w2.append (by rw [w1]; exact h2), by omega, ?_⟩
  omega

theorem rawNext_semi {m : Mode} {t : Text} {n : Nat} (hr : Ready m t)
    (h : rawNext t = (.semi, n)) :
    ∃ w, t.take n = w ++ t!";" ∧ m.read w = .code ∧ m.Quiet w := by
  have hne : t ≠ [] := by
    rintro rfl
    simp [rawNext, rawHere] at h
  simp only [rawNext, Prod.mk.injEq] at h
  obtain ⟨hk, rfl⟩ := h
  obtain ⟨h1, r, h2⟩ := rawHere_semi (u := t.dropWhile isSpaceChar)
    (n := (rawHere (t.dropWhile isSpaceChar)).2) (by rw [← hk])
  obtain ⟨w1, w2⟩ := hr.white hne
  obtain ⟨d1, d2⟩ := takeWhile_drop t (rawHere (t.dropWhile isSpaceChar)).2
  refine ⟨t.takeWhile isSpaceChar, ?_, w1, w2⟩
  rw [d1, h1, h2]
  rfl

/-- The comments that follow. -/
theorem extendComments_spec (fuel : Nat) (m : Mode) (t : Text) (hr : Ready m t) :
    Ready (m.read (t.take (extendComments fuel t).1)) (t.drop (extendComments fuel t).1) ∧
      m.Quiet (t.take (extendComments fuel t).1) ∧
      ((extendComments fuel t).2 = false → (extendComments fuel t).1 = 0) := by
  induction fuel generalizing m t with
  | zero => exact ⟨hr, rfl, fun _ => rfl⟩
  | succ fuel ih =>
    unfold extendComments
    split
    next n h =>
      obtain ⟨h1, h2, h3, h4⟩ := rawNext_comment hr h
      obtain ⟨i1, i2, i3⟩ := ih _ _ h1
      have hs : t.take (n + (extendComments fuel (t.drop n)).1)
          = t.take n ++ (t.drop n).take (extendComments fuel (t.drop n)).1 := by
        rw [List.take_add]
      dsimp only
      refine ⟨?_, ?_, fun h => by cases h⟩
      · rw [hs, Mode.read_append, ← List.drop_drop]
        exact i1
      · rw [hs]
        exact h2.append i2
    next => exact ⟨hr, rfl, fun _ => rfl⟩

/-- The record of what follows, with the semicolon. -/
theorem stmtEnd_semi {t : Text} {n m : Nat} {b : Bool}
    (he : extendComments t.length t = (n, b)) (hr : rawNext (t.drop n) = (.semi, m)) :
    (stmtEnd t).len = n + m ∧ (stmtEnd t).comment = b ∧ (stmtEnd t).semi = true := by
  simp [stmtEnd, he, hr]

/-- The record of what follows, without a semicolon. -/
theorem stmtEnd_other {t : Text} {n : Nat} {b : Bool}
    (he : extendComments t.length t = (n, b)) (hr : (rawNext (t.drop n)).1 ≠ .semi) :
    (stmtEnd t).len = n ∧ (stmtEnd t).comment = b ∧ (stmtEnd t).semi = false ∧
      (stmtEnd t).hash = ((rawNext (t.drop n)).1 == .hash) := by
  generalize hx : rawNext (t.drop n) = x at hr
  rcases x with ⟨k, m⟩
  cases k <;> simp [stmtEnd, he, hx] at hr ⊢

/-- Everything about the end of a statement that matters for the closing brace. -/
theorem stmtEnd_spec (t : Text) :
    ((stmtEnd t).semi = true → ∃ w, t.take (stmtEnd t).len = w ++ t!";" ∧
      Mode.code.read w = .code ∧ Mode.code.Quiet w) ∧
    ((stmtEnd t).semi = false →
      Ready (Mode.code.read (t.take (stmtEnd t).len)) (t.drop (stmtEnd t).len) ∧
      Mode.code.Quiet (t.take (stmtEnd t).len) ∧
      ((stmtEnd t).comment = false → (stmtEnd t).len = 0)) := by
  have hspec := extendComments_spec t.length .code t (.inl rfl)
  generalize hx : extendComments t.length t = x at hspec
  rcases x with ⟨n, b⟩
  dsimp only at hspec
  generalize hy : rawNext (t.drop n) = y
  rcases y with ⟨k, m⟩
  by_cases hk : k = .semi
  · subst hk
    obtain ⟨e1, e2, e3⟩ := stmtEnd_semi hx hy
    rw [e1, e2, e3]
    refine ⟨fun _ => ?_, fun h => by cases h⟩
    obtain ⟨w, h1, h2, h3⟩ := rawNext_semi hspec.1 hy
    refine ⟨t.take n ++ w, ?_, ?_, hspec.2.1.append h3⟩
    · rw [List.take_add, h1, List.append_assoc]
    · rw [Mode.read_append, h2]
  · obtain ⟨e1, e2, e3, -⟩ := stmtEnd_other hx (by rw [hy]; exact hk)
    rw [e1, e2, e3]
    exact ⟨fun h => (by cases h), fun _ => hspec⟩

theorem extendComments_le (fuel : Nat) (t : Text) : (extendComments fuel t).1 ≤ t.length := by
  induction fuel generalizing t with
  | zero => exact Nat.zero_le _
  | succ fuel ih =>
    unfold extendComments
    split
    next n h =>
      have := (rawNext_comment (m := .code) (.inl rfl) h).2.2.2
      have := ih (t.drop n)
      rw [List.length_drop] at this
      dsimp only
      omega
    next => exact Nat.zero_le _

theorem rawNext_semi_le {t : Text} {n : Nat} (h : rawNext t = (.semi, n)) : n ≤ t.length := by
  simp only [rawNext, Prod.mk.injEq] at h
  obtain ⟨hk, rfl⟩ := h
  obtain ⟨h1, r, h2⟩ := rawHere_semi (u := t.dropWhile isSpaceChar)
    (n := (rawHere (t.dropWhile isSpaceChar)).2) (by rw [← hk])
  have hl := congrArg List.length (List.takeWhile_append_dropWhile (p := isSpaceChar) (l := t))
  rw [List.length_append, h2, List.length_cons] at hl
  omega

theorem stmtEnd_le (t : Text) : (stmtEnd t).len ≤ t.length := by
  generalize hx : extendComments t.length t = x
  have hle := extendComments_le t.length t
  rw [hx] at hle
  rcases x with ⟨n, b⟩
  dsimp only at hle
  generalize hy : rawNext (t.drop n) = y
  rcases y with ⟨k, m⟩
  by_cases hk : k = .semi
  · subst hk
    rw [(stmtEnd_semi hx hy).1]
    have := rawNext_semi_le hy
    rw [List.length_drop] at this
    omega
  · rw [(stmtEnd_other hx (by rw [hy]; exact hk)).1]
    exact hle

/-! ### The semicolon is found -/

theorem line_step {esc : Bool} {c : Char} (hc : c ≠ '\n') :
    (Mode.line esc).step c = .line (if isBlankChar c then esc else c == '\\') := by
  simp only [Mode.step, if_neg hc]
  cases hb : isBlankChar c
  · have : ¬ (c = ' ' ∨ c = '\t' ∨ c = '\x0b' ∨ c = '\x0c') := by
      rw [← isBlankChar_iff, hb]; simp
    rw [if_neg this]
    rfl
  · rw [if_pos ((isBlankChar_iff c).1 hb)]
    rfl

theorem lineCommentLen_ok (u r : Text) (esc : Bool)
    (h1 : ∀ a, a <+: u → (Mode.line esc).read a ≠ .code)
    (h2 : (Mode.line esc).read u = .line false) :
    lineCommentLen esc (u ++ '\n' :: r) = u.length := by
  induction u generalizing esc with
  | nil =>
    cases esc
    · simp [lineCommentLen]
    · cases h2
  | cons c cs ih =>
    rw [List.cons_append, lineCommentLen, List.length_cons, Nat.add_comm _ 1]
    have hp : ∀ a, a <+: cs → ((Mode.line esc).step c).read a ≠ .code := fun a ha =>
      h1 (c :: a) (by simpa using ha)
    by_cases hc : c = '\n'
    · subst hc
      cases esc
      · exact absurd rfl (h1 ['\n'] (by simp))
      · rw [if_pos rfl, if_pos rfl, ih false hp h2]
    · rw [line_step hc] at hp
      rw [Mode.read_cons, line_step hc] at h2
      rw [if_neg hc, ih _ hp h2]

theorem blockCommentLen_ok (u r : Text) (h : ∀ a, a <+: u → Mode.block.read a ≠ .code) :
    blockCommentLen (u ++ '*' :: '/' :: r) = some (u.length + 2) := by
  induction u with
  | nil => simp [blockCommentLen]
  | cons c cs ih =>
    have hp : ∀ a, a <+: cs → (Mode.block.step c).read a ≠ .code := fun a ha =>
      h (c :: a) (by simpa using ha)
    have hp' : ∀ a, a <+: cs → Mode.block.read a ≠ .code := by
      intro a ha
      by_cases hc : c = '*'
      · have hst : Mode.block.step c = .star := by simp [Mode.step, hc]
        rw [hst] at hp
        cases a with
        | nil => simp
        | cons d ds =>
          by_cases hd : d = '/'
          · subst hd
            exact absurd rfl (hp ['/'] (List.IsPrefix.trans (by simp) ha))
          · rw [← (read_star ds hd).1]
            exact hp _ ha
      · have hst : Mode.block.step c = .block := by simp [Mode.step, hc]
        rw [hst] at hp
        exact hp a ha
    rw [List.cons_append, blockCommentLen, if_neg, ih hp']
    · simp
    · rintro ⟨rfl, hh⟩
      cases cs with
      | nil => simp at hh
      | cons d ds =>
        simp at hh
        subst hh
        exact absurd rfl (hp ['/'] (by simp))

/-- Behind the comments, the next token ends the search for the semicolon. -/
def Ended (fuel : Nat) (t : Text) : Prop :=
  (rawNext (t.drop (extendComments fuel t).1)).1 = .semi ∨
    (rawNext (t.drop (extendComments fuel t).1)).1 = .hash

theorem rawNext_space {c : Char} (hc : isSpaceChar c = true) (t : Text) :
    rawNext (c :: t) = ((rawNext t).1, (rawNext t).2 + 1) := by
  simp only [rawNext, List.dropWhile_cons, hc, if_true, List.takeWhile_cons, List.length_cons]
  congr 1
  omega

theorem Ended.space {c : Char} (hc : isSpaceChar c = true) {fuel : Nat} {t : Text}
    (h : Ended fuel t) : Ended fuel (c :: t) := by
  unfold Ended at *
  have hr := rawNext_space hc t
  cases fuel with
  | zero =>
    simp only [extendComments, List.drop_zero] at h ⊢
    rw [hr]
    exact h
  | succ fuel =>
    unfold extendComments at h ⊢
    rw [hr]
    generalize hx : rawNext t = x at h ⊢
    rcases x with ⟨k, n⟩
    cases k <;> simp only [List.drop_zero, hr, hx] at h ⊢
    case comment =>
      rw [show n + 1 + (extendComments fuel ((c :: t).drop (n + 1))).1
        = n + (extendComments fuel (t.drop n)).1 + 1 by simp; omega]
      exact h
    all_goals exact h

theorem Ended.comment {fuel n : Nat} {t : Text} (hr : rawNext t = (.comment, n))
    (h : Ended fuel (t.drop n)) : Ended (fuel + 1) t := by
  unfold Ended at *
  unfold extendComments
  rw [hr]
  dsimp only
  rw [← List.drop_drop]
  exact h

theorem Ended.now {fuel : Nat} {t : Text}
    (h : (rawNext t).1 = .semi ∨ (rawNext t).1 = .hash) : Ended fuel t := by
  have : extendComments fuel t = (0, false) := by
    cases fuel with
    | zero => rfl
    | succ fuel =>
      unfold extendComments
      generalize rawNext t = x at h
      rcases x with ⟨k, n⟩
      rcases h with h | h <;> dsimp only at h <;> subst h <;> rfl
  unfold Ended
  rw [this]
  exact h

theorem rawNext_comment_here {t : Text} {n : Nat} (h : rawHere t = (.comment, n))
    (hw : ∀ c ∈ t.head?, isSpaceChar c = false) : rawNext t = (.comment, n) := by
  cases t with
  | nil => cases h
  | cons c cs =>
    have := hw c rfl
    simp [rawNext, List.dropWhile_cons, List.takeWhile_cons, this, h]

theorem ended_between (js : List Between) (hok : ∀ j ∈ js, j.ok) (more : Text) (fuel : Nat)
    (hf : (js.flatMap Between.text ++ ';' :: more).length ≤ fuel) :
    Ended fuel (js.flatMap Between.text ++ ';' :: more) := by
  induction js generalizing fuel with
  | nil => exact .now (.inl rfl)
  | cons j js ih =>
    have hj := hok j (List.mem_cons_self ..)
    have ih := ih fun i hi => hok i (List.mem_cons_of_mem _ hi)
    rw [List.flatMap_cons, List.append_assoc] at hf ⊢
    generalize js.flatMap Between.text ++ ';' :: more = t at hf ih
    cases j with
    | space c =>
      refine Ended.space (by rw [isSpaceChar_eq]; exact hj) (ih fuel ?_)
      simp [Between.text] at hf
      omega
    | line u =>
      have e : (Between.line u).text ++ t = '/' :: '/' :: (u ++ '\n' :: t) := by
        simp [Between.text]
      rw [e] at hf ⊢
      simp only [List.length_cons, List.length_append] at hf
      cases fuel with
      | zero => omega
      | succ fuel =>
        have hr : rawNext ('/' :: '/' :: (u ++ '\n' :: t)) = (.comment, 2 + u.length) := by
          apply rawNext_comment_here
          · simp only [rawHere, lineCommentLen_ok u t false hj.1 hj.2]
          · simp [isSpaceChar]
        refine Ended.comment hr ?_
        have : ('/' :: '/' :: (u ++ '\n' :: t)).drop (2 + u.length) = '\n' :: t := by
          rw [Nat.add_comm]
          simp
        rw [this]
        exact Ended.space rfl (ih fuel (by omega))
    | block u =>
      have e : (Between.block u).text ++ t = '/' :: '*' :: (u ++ '*' :: '/' :: t) := by
        simp [Between.text]
      rw [e] at hf ⊢
      simp only [List.length_cons, List.length_append] at hf
      cases fuel with
      | zero => omega
      | succ fuel =>
        have hr : rawNext ('/' :: '*' :: (u ++ '*' :: '/' :: t))
            = (.comment, 2 + (u.length + 2)) := by
          apply rawNext_comment_here
          · simp only [rawHere, blockCommentLen_ok u t hj]
          · simp [isSpaceChar]
        refine Ended.comment hr ?_
        have : ('/' :: '*' :: (u ++ '*' :: '/' :: t)).drop (2 + (u.length + 2)) = t := by
          rw [show 2 + (u.length + 2) = (u.length + 2) + 2 by omega]
          simp [List.drop_append]
        rw [this]
        exact ih fuel (by omega)
    | directive u =>
      refine .now (.inr ?_)
      have e : (Between.directive u).text ++ t = '#' :: (u ++ '\n' :: t) := by
        simp [Between.text]
      rw [e]
      cases u with
      | nil => rfl
      | cons d ds =>
        have hd : d ≠ '#' := by
          intro h
          exact hj (by simp [h])
        simp only [rawNext, List.dropWhile_cons, show isSpaceChar '#' = false from rfl]
        simp only [Bool.false_eq_true, if_false, List.cons_append]
        unfold rawHere
        split <;> simp_all

theorem stmtEnd_between (js : List Between) (hok : ∀ j ∈ js, j.ok) (more : Text) :
    (stmtEnd (js.flatMap Between.text ++ ';' :: more)).semi = true ∨
      (stmtEnd (js.flatMap Between.text ++ ';' :: more)).hash = true := by
  have hE := ended_between js hok more _ (Nat.le_refl _)
  generalize js.flatMap Between.text ++ ';' :: more = t at hE
  unfold Ended at hE
  generalize hx : extendComments t.length t = x at hE
  rcases x with ⟨n, b⟩
  dsimp only at hE
  rcases hE with hE | hE
  · exact .inl (stmtEnd_semi (m := (rawNext (t.drop n)).2) hx (by rw [← hE])).2.2
  · refine .inr ?_
    rw [(stmtEnd_other hx (by rw [hE]; simp)).2.2.2, hE]
    rfl

end Dredd
