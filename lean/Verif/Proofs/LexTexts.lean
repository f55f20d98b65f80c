/-
Texts that begin and end outside of comments and literals.
-/
import Verif.Proofs.Lex
import Verif.Proofs.Decimal

namespace Dredd

/-- Inside of a comment or literal, just after a slash, or none of these. -/
inductive LexMode
  | code | slash | line | block (star : Bool) | quote (q : Char) (esc : Bool)
deriving DecidableEq

def LexMode.step : LexMode → Char → LexMode
  | .code, c => if c == '/' then .slash else if c == '"' || c == '\'' then .quote c false else .code
  | .slash, c =>
    if c == '/' then .line else if c == '*' then .block false
    else if c == '"' || c == '\'' then .quote c false else .code
  | .line, c => if c == '\n' then .code else .line
  | .block star, c => if star && c == '/' then .code else .block (c == '*')
  | .quote q esc, c =>
    if esc then .quote q false
    else if c == '\n' then .code
    else if c == '\\' then .quote q true
    else if c == q then .code
    else .quote q false

def LexMode.run (m : LexMode) (t : Text) : LexMode := t.foldl LexMode.step m

theorem LexMode.run_append (m : LexMode) (a b : Text) : m.run (a ++ b) = (m.run a).run b := by
  simp [LexMode.run]

def Lexing.mode : Lexing → LexMode
  | .punct u => if u = t!"/" then .slash else .code
  | .line => .line
  | .block s => .block s
  | .quote q e => .quote q e
  | _ => .code

theorem longPuncts_last (u : Text) (c : Char) (h : u ++ [c] ∈ longPuncts) :
    c ∈ [('>' : Char), '+', '-', '<', '=', '&', '|', '.', ':', '#', '*', '%'] ∧ u ≠ [] ∧
      u.head? ≠ some '(' ∧ u.head? ≠ some ')' ∧ u.head? ≠ some '{' ∧ u.head? ≠ some '}' ∧
      u.head? ≠ some ',' ∧ u.head? ≠ some ';' := by
  have key : ∀ w ∈ longPuncts,
      (w.getLast?.any fun c => [('>' : Char), '+', '-', '<', '=', '&', '|', '.', ':', '#', '*', '%'].contains c)
        = true ∧ 2 ≤ w.length ∧
        w.head?.all (fun c => c ≠ '(' ∧ c ≠ ')' ∧ c ≠ '{' ∧ c ≠ '}' ∧ c ≠ ',' ∧ c ≠ ';') := by
    decide
  obtain ⟨h1, h2, h3⟩ := key _ h
  simp only [List.getLast?_append, List.getLast?_singleton, Option.some_or, Option.any_some,
    List.contains_iff_mem] at h1
  cases u with
  | nil => simp at h2
  | cons d ds =>
    simp at h3
    refine ⟨h1, by simp, ?_⟩
    simp only [List.head?_cons, ne_eq, Option.some.injEq]
    exact h3

/-- The next character. -/
def Lexing.next (s : Lexing) (c : Char) : Lexing := (s.more c).getD (.start c)

theorem Lexing.mode_start (c : Char) : (Lexing.start c).mode = LexMode.step .code c := by
  unfold Lexing.start
  split
  · rename_i h
    have h1 : c ≠ '/' := by rintro rfl; revert h; decide
    have h2 : c ≠ '"' := by rintro rfl; revert h; decide
    have h3 : c ≠ '\'' := by rintro rfl; revert h; decide
    simp [Lexing.mode, LexMode.step, h1, h2, h3]
  split
  · rename_i h
    have h1 : c ≠ '/' := by rintro rfl; revert h; decide
    have h2 : c ≠ '"' := by rintro rfl; revert h; decide
    have h3 : c ≠ '\'' := by rintro rfl; revert h; decide
    simp [Lexing.mode, LexMode.step, h1, h2, h3]
  split
  · rename_i h
    have h1 : c ≠ '/' := by rintro rfl; revert h; decide
    have h2 : c ≠ '"' := by rintro rfl; revert h; decide
    have h3 : c ≠ '\'' := by rintro rfl; revert h; decide
    simp [Lexing.mode, LexMode.step, h1, h2, h3]
  split
  · rename_i h
    have h1 : c ≠ '/' := by rintro rfl; revert h; decide
    simp [Lexing.mode, LexMode.step, h1, h]
  · rename_i h
    simp [Lexing.mode, LexMode.step, h]

theorem wordChar_ne {c : Char} (h : wordChar c = true) : c ≠ '/' ∧ c ≠ '"' ∧ c ≠ '\'' := by
  refine ⟨?_, ?_, ?_⟩ <;> (rintro rfl; revert h; decide)

theorem LexMode.step_other {c : Char} (h1 : c ≠ '/') (h2 : c ≠ '"') (h3 : c ≠ '\'') :
    LexMode.step .code c = .code := by simp [LexMode.step, h1, h2, h3]

theorem Lexing.mode_next (s : Lexing) (c : Char) : (s.next c).mode = s.mode.step c := by
  unfold Lexing.next
  cases s with
  | white => simpa [Lexing.more, Lexing.mode] using Lexing.mode_start c
  | comment => simpa [Lexing.more, Lexing.mode] using Lexing.mode_start c
  | word =>
    simp only [Lexing.more]
    split
    · rename_i h
      obtain ⟨h1, h2, h3⟩ := wordChar_ne h
      simp [Lexing.mode, LexMode.step, h1, h2, h3]
    · simpa [Lexing.mode] using Lexing.mode_start c
  | literal =>
    simp only [Lexing.more]
    split
    · rename_i h
      obtain ⟨h1, h2, h3⟩ := wordChar_ne h
      simp [Lexing.mode, LexMode.step, h1, h2, h3]
    · simpa [Lexing.mode] using Lexing.mode_start c
  | number e =>
    simp only [Lexing.more]
    split
    · rename_i h
      have : c ≠ '/' ∧ c ≠ '"' ∧ c ≠ '\'' := by
        rcases Bool.or_eq_true _ _ ▸ h with h | h
        · exact wordChar_ne h
        · rw [beq_iff_eq] at h; subst h; decide
      obtain ⟨h1, h2, h3⟩ := this
      simp [Lexing.mode, LexMode.step, h1, h2, h3]
    · split
      · rename_i h
        have : c ≠ '/' ∧ c ≠ '"' ∧ c ≠ '\'' := by
          simp only [Bool.and_eq_true, Bool.or_eq_true, beq_iff_eq] at h
          rcases h.2 with rfl | rfl <;> decide
        obtain ⟨h1, h2, h3⟩ := this
        simp [Lexing.mode, LexMode.step, h1, h2, h3]
      · simpa [Lexing.mode] using Lexing.mode_start c
  | line =>
    simp only [Lexing.more]
    split
    · rename_i h
      rw [beq_iff_eq] at h; subst h
      decide
    · rename_i h
      simp [Lexing.mode, LexMode.step, h]
  | block st =>
    simp only [Lexing.more]
    split
    · rename_i h
      simp [Lexing.mode, LexMode.step, h]
    · rename_i h
      simp [Lexing.mode, LexMode.step, h]
  | quote q esc =>
    simp only [Lexing.more]
    cases esc
    · simp only [Bool.false_eq_true, if_false]
      split
      · rename_i h
        rw [beq_iff_eq] at h; subst h
        simp [Lexing.mode, LexMode.step]
        decide
      · rename_i h
        split
        · rename_i h'; simp [Lexing.mode, LexMode.step, h, h']
        · rename_i h'
          split
          · rename_i h''; simp [Lexing.mode, LexMode.step, h, h', h'']
          · rename_i h''; simp [Lexing.mode, LexMode.step, h, h', h'']
    · simp [Lexing.mode, LexMode.step]
  | punct u =>
    simp only [Lexing.more]
    by_cases hu : u = t!"/"
    · subst hu
      split
      · rename_i h; simp only [Bool.and_eq_true, beq_iff_eq] at h; rw [h.2]; rfl
      · rename_i h1
        split
        · rename_i h; simp only [Bool.and_eq_true, beq_iff_eq] at h; rw [h.2]; rfl
        · rename_i h2
          have n1 : c ≠ '/' := by rintro rfl; exact h1 rfl
          have n2 : c ≠ '*' := by rintro rfl; exact h2 rfl
          rw [if_neg (by intro h; simp at h)]
          split
          · rename_i h
            have := longPuncts_last _ _ h
            have n3 : c ≠ '"' ∧ c ≠ '\'' := by
              constructor <;> (rintro rfl; revert this; decide)
            simp [Lexing.mode, LexMode.step, n1, n2, n3]
          · have := Lexing.mode_start c
            simp [Lexing.mode, LexMode.step, n1, n2] at this ⊢
            exact this
    · rw [if_neg (by simp [hu]), if_neg (by simp [hu])]
      split
      · rename_i h
        simp only [Bool.and_eq_true] at h
        have hw : wordChar c = true := by
          simp [wordChar, Char.isAlphanum, h.2]
        obtain ⟨h1, h2, h3⟩ := wordChar_ne hw
        simp [Lexing.mode, LexMode.step, h1, h2, h3, hu]
      · split
        · rename_i h
          have := (longPuncts_last _ _ h).1
          have n3 : c ≠ '/' ∧ c ≠ '"' ∧ c ≠ '\'' := by
            refine ⟨?_, ?_, ?_⟩ <;> (rintro rfl; revert this; decide)
          have n4 : u ++ [c] ≠ t!"/" := by
            intro e
            have := congrArg List.getLast? e
            simp at this
            exact n3.1 this
          simp [Lexing.mode, LexMode.step, n3, n4, hu]
        · have := Lexing.mode_start c
          simp [Lexing.mode, hu] at this ⊢
          exact this

theorem lexEnd_mode (s : Lexing) (t : Text) : (lexEnd s t).mode = s.mode.run t := by
  induction t generalizing s with
  | nil => rfl
  | cons c cs ih =>
    rw [lexEnd, ih]
    show ((s.next c).mode).run cs = _
    rw [Lexing.mode_next]
    rfl

/-- The text begins and ends outside of comments and literals, and not with a slash. -/
def Plain (t : Text) : Prop := LexMode.run .code t = .code

instance (t : Text) : Decidable (Plain t) := inferInstanceAs (Decidable (_ = _))

theorem Plain.nil : Plain [] := rfl

theorem Plain.append {a b : Text} (ha : Plain a) (hb : Plain b) : Plain (a ++ b) := by
  unfold Plain at *
  rw [LexMode.run_append, ha, hb]

/-- No character that begins a comment or literal. -/
def dullChar (c : Char) : Bool := c != '/' && c != '"' && c != '\''

theorem plain_of_dull {t : Text} (h : t.all dullChar = true) : Plain t := by
  induction t with
  | nil => rfl
  | cons c cs ih =>
    simp only [List.all_cons, Bool.and_eq_true] at h
    have hc : LexMode.step .code c = .code := by
      have := h.1
      simp only [dullChar, Bool.and_eq_true, bne_iff_ne] at this
      exact LexMode.step_other this.1.1 this.1.2 this.2
    show LexMode.run (LexMode.step .code c) cs = .code
    rw [hc]
    exact ih h.2

theorem endSt_mode {t : Text} {s : Lexing} (h : endSt t = some s) : s.mode = LexMode.run .code t := by
  cases t with
  | nil => cases h
  | cons c cs =>
    simp only [endSt, Option.some.injEq] at h
    rw [← h, lexEnd_mode, Lexing.mode_start]
    rfl

/-! ### Characters that end a lexeme -/

/-- Characters that never belong to a longer lexeme. -/
def sealChar (c : Char) : Bool := c == '(' || c == ')' || c == ' ' || c == '}' || c == '{' || c == ',' ||
  c == ';' || c == '\n'

theorem sealChar_mem {c : Char} (h : sealChar c = true) :
    c ∈ [('(' : Char), ')', ' ', '}', '{', ',', ';', '\n'] := by
  simp only [sealChar, Bool.or_eq_true, beq_iff_eq] at h
  simp only [List.mem_cons, List.not_mem_nil, or_false]
  rcases h with ((((((h | h) | h) | h) | h) | h) | h) | h <;> simp [h]

/-- Nothing ever continues the state. -/
def Done (s : Lexing) : Prop := ∀ c, s.more c = none

/-- A state that is neither inside a comment nor a literal. -/
def Lexing.closed : Lexing → Bool
  | .line | .block _ | .quote _ _ => false
  | _ => true

theorem Lexing.closed_of_mode {s : Lexing} (h : s.mode = .code) : s.closed = true := by
  cases s <;> first | rfl | (simp [Lexing.mode] at h)

/-- Characters that do not belong to what is being read. -/
def apartChar (c : Char) : Bool :=
  !wordChar c && ! [('.' : Char), '+', '-', '/', '*', '>', '<', '=', '&', '|', ':', '#', '%'].contains c

theorem more_apart {s : Lexing} {c : Char} (hs : s.closed = true) (hc : apartChar c = true) :
    s.more c = none := by
  simp only [apartChar, Bool.and_eq_true, Bool.not_eq_true', List.contains_eq_mem,
    decide_eq_false_iff_not] at hc
  obtain ⟨h1, h2⟩ := hc
  have hd : c.isDigit = false := by
    cases hd : c.isDigit with
    | false => rfl
    | true => simp [wordChar, Char.isAlphanum, hd] at h1
  simp only [List.mem_cons, List.not_mem_nil, or_false, not_or] at h2
  cases s with
  | white => rfl
  | comment => rfl
  | word => simp [Lexing.more, h1]
  | literal => simp [Lexing.more, h1]
  | number e => simp [Lexing.more, h1, h2]
  | line => cases hs
  | block _ => cases hs
  | quote _ _ => cases hs
  | punct u =>
    have : u ++ [c] ∉ longPuncts := by
      intro h
      have := (longPuncts_last _ _ h).1
      simp [h2] at this
    simp [Lexing.more, h2, hd, this]

theorem apart_of_seal {c : Char} (h : sealChar c = true) : apartChar c = true := by
  have h := sealChar_mem h
  have key : ∀ d ∈ [('(' : Char), ')', ' ', '}', '{', ',', ';', '\n'], apartChar d = true := by decide
  exact key c h

theorem done_start {c : Char} (h : sealChar c = true) : Done (.start c) := by
  have h := sealChar_mem h
  intro d
  have key : ∀ u, u ∈ [t!"(", t!")", t!"}", t!"{", t!",", t!";"] → (Lexing.punct u).more d = none := by
    intro u hu
    have h1 : u ++ [d] ∉ longPuncts := by
      intro hl
      have := (longPuncts_last _ _ hl).2.2
      simp only [List.mem_cons, List.not_mem_nil, or_false] at hu
      rcases hu with rfl | rfl | rfl | rfl | rfl | rfl <;> simp at this
    simp only [List.mem_cons, List.not_mem_nil, or_false] at hu
    simp only [Lexing.more]
    rw [if_neg, if_neg, if_neg, if_neg h1]
    all_goals (rcases hu with rfl | rfl | rfl | rfl | rfl | rfl <;> simp)
  simp only [List.mem_cons, List.not_mem_nil, or_false] at h
  rcases h with rfl | rfl | rfl | rfl | rfl | rfl | rfl | rfl
  · exact key _ (by decide)
  · exact key _ (by decide)
  · rfl
  · exact key _ (by decide)
  · exact key _ (by decide)
  · exact key _ (by decide)
  · exact key _ (by decide)
  · rfl

/-- The text is not empty, and nothing that comes after it belongs to its last lexeme. -/
def Seals (t : Text) : Prop := ∃ a c, t = a ++ [c] ∧ Plain a ∧ sealChar c = true

theorem Seals.append {a b : Text} (ha : Plain a) (hb : Seals b) : Seals (a ++ b) := by
  obtain ⟨x, c, rfl, h1, h2⟩ := hb
  exact ⟨a ++ x, c, by simp, ha.append h1, h2⟩

theorem Seals.ne_nil {t : Text} (h : Seals t) : t ≠ [] := by
  obtain ⟨a, c, rfl, -, -⟩ := h
  simp

theorem Seals.plain {t : Text} (h : Seals t) : Plain t := by
  obtain ⟨a, c, rfl, h1, h2⟩ := h
  refine h1.append (plain_of_dull ?_)
  have h2 := sealChar_mem h2
  have key : ∀ d ∈ [('(' : Char), ')', ' ', '}', '{', ',', ';', '\n'], [d].all dullChar = true := by
    decide
  exact key c h2

theorem Seals.done {t : Text} (h : Seals t) : ∃ s, endSt t = some s ∧ Done s := by
  obtain ⟨a, c, rfl, h1, h2⟩ := h
  refine ⟨.start c, ?_, done_start h2⟩
  have hok : Ok (endSt a) c := by
    intro s hs
    refine more_apart (Lexing.closed_of_mode ?_) (apart_of_seal h2)
    rw [endSt_mode hs]; exact h1
  rw [endSt_append a [] c hok]
  rfl

theorem natDec_dull (n : Nat) : (natDec n).all dullChar = true := by
  rw [List.all_eq_true]
  intro c hc
  have h := (natDec_spec n).2.1 c hc
  unfold IsDigit at h
  simp only [dullChar, Bool.and_eq_true, bne_iff_ne]
  refine ⟨⟨?_, ?_⟩, ?_⟩ <;> (rintro rfl; revert h; decide)

end Dredd
