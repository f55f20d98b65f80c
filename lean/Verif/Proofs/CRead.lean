/-
Generated functions read back from their text (C59).
-/
import Verif.Spec.CRead
import Verif.Proofs.LexGlue
import Verif.Props.C39

namespace Dredd

/-! ### Tokens of texts put together -/

theorem tokens_ok (a b : Text) (c : Char) (h : Ok (endSt a) c) :
    tokens (a ++ c :: b) = tokens a ++ tokens (c :: b) := by
  simp [tokens, lexemes_append a b c h]

/-- What comes after the text is read on its own. -/
def Sealed (a : Text) : Prop := ∀ c, Ok (endSt a) c

theorem Sealed.tokens {a : Text} (h : Sealed a) (b : Text) : tokens (a ++ b) = tokens a ++ tokens b := by
  cases b with
  | nil => simp [Dredd.tokens, lexemes]
  | cons c cs => exact tokens_ok a cs c (h c)

theorem Sealed.append {a b : Text} (ha : Sealed a) (hb : Sealed b) : Sealed (a ++ b) := by
  cases b with
  | nil => simpa using ha
  | cons c cs =>
    intro d
    rw [endSt_append a cs c (ha c)]
    exact hb d

theorem sealed_white {a : Text} (h : endSt a = some .white) : Sealed a := by
  intro c x hx
  rw [h] at hx
  cases hx
  rfl

/-! ### Words and numbers -/

/-- An identifier. -/
def wordText : Text → Bool
  | [] => false
  | c :: cs => wordChar c && !c.isDigit && cs.all wordChar

theorem word_start {c : Char} (h : wordChar c = true) (hd : c.isDigit = false) :
    Lexing.start c = .word := by
  have : c.isWhitespace = false := by
    cases hw : c.isWhitespace with
    | false => rfl
    | true =>
      simp only [Char.isWhitespace, Bool.or_eq_true, decide_eq_true_eq] at hw
      rcases hw with (((hw | hw) | hw) | hw) <;> (subst hw; revert h; decide)
  simp [Lexing.start, this, h, hd]

theorem lexFrom_word (u t : Text) (h : t.all wordChar = true) : lexFrom .word u t = [(.word, u ++ t)] := by
  induction t generalizing u with
  | nil => simp [lexFrom]
  | cons c cs ih =>
    simp only [List.all_cons, Bool.and_eq_true] at h
    simp [lexFrom, Lexing.more, h.1, ih _ h.2]

theorem lexEnd_word (t : Text) (h : t.all wordChar = true) : lexEnd .word t = .word := by
  induction t with
  | nil => rfl
  | cons c cs ih =>
    simp only [List.all_cons, Bool.and_eq_true] at h
    simp [lexEnd, Lexing.more, h.1, ih h.2]

theorem tokens_word {t : Text} (h : wordText t = true) : tokens t = [t] ∧ endSt t = some .word ∧
    isIdent t = true ∧ ∃ c cs, t = c :: cs ∧ wordChar c = true := by
  cases t with
  | nil => cases h
  | cons c cs =>
    simp only [wordText, Bool.and_eq_true, Bool.not_eq_true'] at h
    refine ⟨?_, ?_, ?_, _, _, rfl, h.1.1⟩
    · simp [tokens, lexemes, word_start h.1.1 h.1.2, lexFrom_word _ _ h.2, Lexing.isToken]
    · simp [endSt, word_start h.1.1 h.1.2, lexEnd_word _ h.2]
    · simp [isIdent, h.1.1, h.1.2]

theorem lexFrom_digits (u t : Text) (h : ∀ c ∈ t, IsDigit c) :
    lexFrom (.number false) u t = [(.number false, u ++ t)] := by
  induction t generalizing u with
  | nil => simp [lexFrom]
  | cons c cs ih =>
    have hc := h c List.mem_cons_self
    have hd := digit_char hc
    have hw : wordChar c = true := by simp [wordChar, Char.isAlphanum, hd]
    have he : (c == 'e' || c == 'E' || c == 'p' || c == 'P') = false := by
      simp only [Bool.or_eq_false_iff, beq_eq_false_iff_ne]
      unfold IsDigit at hc
      refine ⟨⟨⟨?_, ?_⟩, ?_⟩, ?_⟩ <;> (rintro rfl; revert hc; decide)
    have hm : Lexing.more (.number false) c = some (.number false) := by
      simp only [Lexing.more, hw, Bool.true_or, if_true, he]
    simp [lexFrom, hm, ih _ fun d hd => h d (List.mem_cons_of_mem _ hd)]

theorem digit_start {c : Char} (hc : IsDigit c) : Lexing.start c = .number false := by
  have hd := digit_char hc
  have hw : c.isWhitespace = false := by
    have : c.isWhitespace = true → False := by
      intro hw
      simp only [Char.isWhitespace, Bool.or_eq_true, decide_eq_true_eq] at hw
      unfold IsDigit at hc
      rcases hw with (((h | h) | h) | h) <;> (subst h; revert hc; decide)
    cases h : c.isWhitespace with
    | false => rfl
    | true => exact absurd h this
  simp [Lexing.start, hw, hd]

theorem tokens_natDec (n : Nat) : tokens (natDec n) = [natDec n] := by
  obtain ⟨h1, h2, -⟩ := natDec_spec n
  cases hn : natDec n with
  | nil => exact absurd hn h1
  | cons c cs =>
    rw [hn] at h2
    simp [tokens, lexemes, digit_start (h2 c List.mem_cons_self),
      lexFrom_digits _ cs fun d hd => h2 d (List.mem_cons_of_mem _ hd), Lexing.isToken]

theorem natDec_endSt (n : Nat) : endSt (natDec n) = some (.number false) :=
  digits_endSt (natDec_spec n).2.1 (natDec_spec n).1

theorem natDec_paren (n : Nat) (b : Text) :
    tokens (natDec n ++ ')' :: b) = natDec n :: tokens (')' :: b) := by
  rw [tokens_ok, tokens_natDec]
  · rfl
  · intro x hx
    rw [natDec_endSt] at hx
    cases hx
    rfl

theorem digit_cases {c : Char} (h : IsDigit c) :
    c ∈ [('0' : Char), '1', '2', '3', '4', '5', '6', '7', '8', '9'] := by
  unfold IsDigit at h
  have : c = Char.ofNat c.toNat := (Char.ofNat_toNat c).symm
  rw [this]
  have h : c.toNat = 48 ∨ c.toNat = 49 ∨ c.toNat = 50 ∨ c.toNat = 51 ∨ c.toNat = 52 ∨ c.toNat = 53 ∨
    c.toNat = 54 ∨ c.toNat = 55 ∨ c.toNat = 56 ∨ c.toNat = 57 := by omega
  rcases h with h | h | h | h | h | h | h | h | h | h <;> rw [h] <;> decide

/-! ### Expressions and statements -/

/-- The tokens of an argument. -/
def argToks (a : Arg) : ArgMode → List Text
  | .value => [a.name]
  | .thunk => [a.name, t!"(", t!")"]
  | .deref => [t!"(", t!"*", a.name, t!")"]

def argExpr (a : Arg) : ArgMode → CExpr
  | .value => .name a.name
  | .thunk => .call (.name a.name) []
  | .deref => .pre t!"*" (.name a.name)

def litToks : Lit → List Text
  | .minusOne => [t!"-", t!"1"]
  | .minusOneF => [t!"-", t!"1.0"]
  | l => [l.str]

def litExpr : Lit → CExpr
  | .minusOne => .pre t!"-" (.num t!"1")
  | .minusOneF => .pre t!"-" (.num t!"1.0")
  | .true_ => .name t!"true"
  | .false_ => .name t!"false"
  | l => .num l.str

def retToks (m : Arg → ArgMode) : RetE → List Text
  | .bin op => argToks .arg1 (m .arg1) ++ [op.str] ++ argToks .arg2 (m .arg2)
  | .arg a => argToks a (m a)
  | .un op =>
    if op.isPrefix then [op.str] ++ argToks .arg (m .arg) else argToks .arg (m .arg) ++ [op.str]
  | .ins op => [op.str, t!"("] ++ argToks .arg (m .arg) ++ [t!")"]
  | .lit l => litToks l

def retExpr (m : Arg → ArgMode) : RetE → CExpr
  | .bin op => .bin op.str (argExpr .arg1 (m .arg1)) (argExpr .arg2 (m .arg2))
  | .arg a => argExpr a (m a)
  | .un op =>
    if op.isPrefix then .pre op.str (argExpr .arg (m .arg)) else .post op.str (argExpr .arg (m .arg))
  | .ins op => .pre op.str (argExpr .arg (m .arg))
  | .lit l => litExpr l

/-- The operators that are printed as symbols with a meaning. -/
def retOk : RetE → Bool
  | .bin op => op.fnName?.isSome
  | .un op => op.fnName?.isSome
  | .ins op => op.fnName?.isSome && op.isPrefix
  | _ => true

theorem ret_tokens (m : Arg → ArgMode) (e : RetE) (h : retOk e = true) :
    tokens (e.render m ++ t!";\n") = retToks m e ++ [t!";"] ∧ endSt (e.render m ++ t!";\n") = some .white := by
  cases e with
  | bin op =>
    simp only [RetE.render, retToks]
    generalize m .arg1 = x
    generalize m .arg2 = y
    revert h
    cases op <;> cases x <;> cases y <;> decide
  | arg a =>
    simp only [RetE.render, retToks]
    generalize m a = x
    cases a <;> cases x <;> decide
  | un op =>
    simp only [RetE.render, retToks]
    generalize m .arg = x
    revert h
    cases op <;> cases x <;> decide
  | ins op =>
    simp only [RetE.render, retToks]
    generalize m .arg = x
    revert h
    cases op <;> cases x <;> decide
  | lit l =>
    simp only [RetE.render, retToks]
    cases l <;> decide

theorem ret_read (m : Arg → ArgMode) (e : RetE) (h : retOk e = true) (n : Nat) (R : List Text) :
    readBinary (n + 12) 1 (retToks m e ++ t!";" :: R) = some (retExpr m e, t!";" :: R) := by
  cases e with
  | bin op =>
    simp only [retToks, retExpr]
    generalize m .arg1 = x
    generalize m .arg2 = y
    cases op <;> (first | (cases h; done) | (cases x <;> cases y <;> rfl))
  | arg a =>
    simp only [retToks, retExpr]
    generalize m a = x
    cases a <;> cases x <;> rfl
  | un op =>
    simp only [retToks, retExpr]
    generalize m .arg = x
    cases op <;> (first | (cases h; done) | (cases x <;> rfl))
  | ins op =>
    simp only [retToks, retExpr]
    generalize m .arg = x
    cases op <;> (first | (cases h; done) | (cases x <;> rfl))
  | lit l => cases l <;> rfl

theorem readExpr_eq {r : CExpr × List Text} {ts : List Text} (k : Nat) (h : k ≤ 4 * ts.length + 4)
    (hr : ∀ n, readBinary (n + k) 1 ts = some r) : readExpr ts = some r := by
  rw [readExpr, show 4 * ts.length + 4 = (4 * ts.length + 4 - k) + k by omega]
  exact hr _

theorem ret_readExpr (m : Arg → ArgMode) (e : RetE) (h : retOk e = true) (R : List Text) :
    readExpr (retToks m e ++ t!";" :: R) = some (retExpr m e, t!";" :: R) := by
  refine readExpr_eq 12 ?_ fun n => ret_read m e h n R
  have : 0 < (retToks m e).length := by
    cases e with
    | bin op => simp [retToks]; omega
    | arg a => simp only [retToks]; cases m a <;> simp [argToks]
    | un op => simp only [retToks]; split <;> simp
    | ins op => simp [retToks]
    | lit l => cases l <;> simp [retToks, litToks]
  simp only [List.length_append, List.length_cons]
  omega

def lineToks (m : Arg → ArgMode) : Line → List Text
  | .quick e => [t!"if", t!"(", t!"!", t!"__dredd_some_mutation_enabled", t!")", t!"return"] ++
      (retToks m e ++ [t!";"])
  | .guard k e => [t!"if", t!"(", t!"__dredd_enabled_mutation", t!"(", t!"local_mutation_id", t!"+",
      natDec k, t!")", t!")", t!"return"] ++ (retToks m e ++ [t!";"])
  | .record n => [t!"__dredd_record_covered_mutants", t!"(", t!"local_mutation_id", t!",", natDec n, t!")",
      t!";"]
  | .ret e => [t!"return"] ++ (retToks m e ++ [t!";"])

def lineStmt (m : Arg → ArgMode) : Line → CStmt
  | .quick e => .ifReturn (.pre t!"!" (.name t!"__dredd_some_mutation_enabled")) (retExpr m e)
  | .guard k e => .ifReturn (.call (.name t!"__dredd_enabled_mutation")
      [.bin t!"+" (.name t!"local_mutation_id") (.num (natDec k))]) (retExpr m e)
  | .record n => .expr (.call (.name t!"__dredd_record_covered_mutants")
      [.name t!"local_mutation_id", .num (natDec n)])
  | .ret e => .return_ (retExpr m e)

def lineOk : Line → Bool
  | .quick e | .guard _ e | .ret e => retOk e
  | .record _ => true

theorem line_tokens (m : Arg → ArgMode) (x : Line) (h : lineOk x = true) (R : Text) :
    tokens (x.render m ++ R) = lineToks m x ++ tokens R := by
  cases x with
  | quick e =>
    have he := ret_tokens m e h
    simp only [Line.render, List.append_assoc]
    rw [(sealed_white (a := t!"  if (!__dredd_some_mutation_enabled) return ") (by decide)).tokens,
      ← List.append_assoc (e.render m), (sealed_white he.2).tokens, he.1,
      show tokens t!"  if (!__dredd_some_mutation_enabled) return " =
        [t!"if", t!"(", t!"!", t!"__dredd_some_mutation_enabled", t!")", t!"return"] by decide]
    simp [lineToks]
  | guard k e =>
    have he := ret_tokens m e h
    simp only [Line.render, List.append_assoc]
    rw [(sealed_white (a := t!"  if (__dredd_enabled_mutation(local_mutation_id + ") (by decide)).tokens]
    show _ ++ tokens (natDec k ++ ')' :: (t!") return " ++ (e.render m ++ (t!";\n" ++ R)))) = _
    rw [natDec_paren]
    show _ ++ natDec k :: tokens (t!")) return " ++ (e.render m ++ (t!";\n" ++ R))) = _
    rw [(sealed_white (a := t!")) return ") (by decide)).tokens,
      ← List.append_assoc (e.render m), (sealed_white he.2).tokens, he.1,
      show tokens t!"  if (__dredd_enabled_mutation(local_mutation_id + " =
        [t!"if", t!"(", t!"__dredd_enabled_mutation", t!"(", t!"local_mutation_id", t!"+"] by decide,
      show tokens t!")) return " = [t!")", t!")", t!"return"] by decide]
    simp [lineToks]
  | record n =>
    simp only [Line.render, List.append_assoc]
    rw [(sealed_white (a := t!"  __dredd_record_covered_mutants(local_mutation_id, ") (by decide)).tokens]
    show _ ++ tokens (natDec n ++ ')' :: (t!";\n" ++ R)) = _
    rw [natDec_paren]
    show _ ++ natDec n :: tokens (t!");\n" ++ R) = _
    rw [(sealed_white (a := t!");\n") (by decide)).tokens,
      show tokens t!"  __dredd_record_covered_mutants(local_mutation_id, " =
        [t!"__dredd_record_covered_mutants", t!"(", t!"local_mutation_id", t!","] by decide,
      show tokens t!");\n" = [t!")", t!";"] by decide]
    simp [lineToks]
  | ret e =>
    have he := ret_tokens m e h
    simp only [Line.render, List.append_assoc]
    rw [(sealed_white (a := t!"  return ") (by decide)).tokens,
      ← List.append_assoc (e.render m), (sealed_white he.2).tokens, he.1,
      show tokens t!"  return " = [t!"return"] by decide]
    simp [lineToks]

theorem quick_read (R : List Text) :
    readExpr (t!"!" :: t!"__dredd_some_mutation_enabled" :: t!")" :: R) =
      some (.pre t!"!" (.name t!"__dredd_some_mutation_enabled"), t!")" :: R) :=
  readExpr_eq 12 (by simp; omega) fun n => rfl

theorem guard_read (k : Nat) (R : List Text) :
    readExpr (t!"__dredd_enabled_mutation" :: t!"(" :: t!"local_mutation_id" :: t!"+" :: natDec k ::
        t!")" :: t!")" :: R) =
      some (.call (.name t!"__dredd_enabled_mutation")
        [.bin t!"+" (.name t!"local_mutation_id") (.num (natDec k))], t!")" :: R) := by
  obtain ⟨h1, h2, -⟩ := natDec_spec k
  cases hk : natDec k with
  | nil => exact absurd hk h1
  | cons c cs =>
    rw [hk] at h2
    have hc := digit_cases (h2 c List.mem_cons_self)
    refine readExpr_eq 20 (by simp; omega) fun n => ?_
    simp only [List.mem_cons, List.not_mem_nil, or_false] at hc
    rcases hc with rfl | rfl | rfl | rfl | rfl | rfl | rfl | rfl | rfl | rfl <;> rfl

theorem record_read (k : Nat) (R : List Text) :
    readExpr (t!"__dredd_record_covered_mutants" :: t!"(" :: t!"local_mutation_id" :: t!"," :: natDec k ::
        t!")" :: t!";" :: R) =
      some (.call (.name t!"__dredd_record_covered_mutants")
        [.name t!"local_mutation_id", .num (natDec k)], t!";" :: R) := by
  obtain ⟨h1, h2, -⟩ := natDec_spec k
  cases hk : natDec k with
  | nil => exact absurd hk h1
  | cons c cs =>
    rw [hk] at h2
    have hc := digit_cases (h2 c List.mem_cons_self)
    refine readExpr_eq 20 (by simp; omega) fun n => ?_
    simp only [List.mem_cons, List.not_mem_nil, or_false] at hc
    rcases hc with rfl | rfl | rfl | rfl | rfl | rfl | rfl | rfl | rfl | rfl <;> rfl

@[simp] theorem want_self (t : Text) (R : List Text) : want t (t :: R) = some R := by simp [want]

theorem want_ne {t x : Text} (h : x ≠ t) (R : List Text) : want t (x :: R) = none := by simp [want, h]

theorem line_read (m : Arg → ArgMode) (x : Line) (h : lineOk x = true) (R : List Text) :
    readStmt (lineToks m x ++ R) = some (lineStmt m x, R) ∧ want t!"}" (lineToks m x ++ R) = none := by
  cases x with
  | quick e =>
    refine ⟨?_, rfl⟩
    simp only [lineToks, List.cons_append, List.nil_append, List.append_assoc, readStmt, want_self,
      Option.bind_some, quick_read, ret_readExpr m e h, lineStmt]
  | guard k e =>
    refine ⟨?_, rfl⟩
    simp only [lineToks, List.cons_append, List.nil_append, List.append_assoc, readStmt, want_self,
      Option.bind_some, guard_read, ret_readExpr m e h, lineStmt]
  | record n =>
    refine ⟨?_, rfl⟩
    simp only [lineToks, List.cons_append, List.nil_append, readStmt, lineStmt, record_read]
    rw [want_ne (by decide), want_ne (by decide)]
    simp
  | ret e =>
    refine ⟨?_, rfl⟩
    simp only [lineToks, List.cons_append, List.nil_append, List.append_assoc, readStmt]
    rw [want_ne (by decide), want_self]
    simp only [ret_readExpr m e h, Option.bind_some, want_self, lineStmt]

theorem lines_tokens (m : Arg → ArgMode) (xs : List Line) (h : ∀ x ∈ xs, lineOk x = true) (R : Text) :
    tokens (xs.flatMap (Line.render m) ++ R) = xs.flatMap (lineToks m) ++ tokens R := by
  induction xs with
  | nil => simp
  | cons x xs ih =>
    simp only [List.flatMap_cons, List.append_assoc]
    rw [line_tokens m x (h x List.mem_cons_self), ih fun y hy => h y (List.mem_cons_of_mem _ hy)]

theorem lines_read (m : Arg → ArgMode) (xs : List Line) (h : ∀ x ∈ xs, lineOk x = true) (R : List Text)
    (n : Nat) (hn : xs.length < n) :
    readStmts n (xs.flatMap (lineToks m) ++ t!"}" :: R) = some (xs.map (lineStmt m), R) := by
  induction xs generalizing n with
  | nil =>
    obtain ⟨n, rfl⟩ : ∃ k, n = k + 1 := ⟨n - 1, by simp at hn; omega⟩
    simp [readStmts]
  | cons x xs ih =>
    obtain ⟨n, rfl⟩ : ∃ k, n = k + 1 := ⟨n - 1, by simp at hn; omega⟩
    simp only [List.flatMap_cons, List.append_assoc, readStmts]
    obtain ⟨h1, h2⟩ := line_read m x (h x List.mem_cons_self) (xs.flatMap (lineToks m) ++ t!"}" :: R)
    rw [h2, h1]
    simp only [Option.bind_some]
    rw [ih (fun y hy => h y (List.mem_cons_of_mem _ hy)) n (by simp at hn; omega)]
    simp

theorem lineToks_pos (m : Arg → ArgMode) (x : Line) : 0 < (lineToks m x).length := by
  cases x <;> simp [lineToks]

theorem lines_length (m : Arg → ArgMode) (xs : List Line) :
    xs.length ≤ (xs.flatMap (lineToks m)).length := by
  induction xs with
  | nil => simp
  | cons x xs ih =>
    have := lineToks_pos m x
    simp only [List.length_cons, List.flatMap_cons, List.length_append]
    omega

/-! ### Functions -/

/-- A token of a type: a word, `&` or `*`. -/
def tyTok (t : Text) : Bool := isIdent t || t == t!"&" || t == t!"*"

/-- A type that is printed as words, perhaps with `&` or `*`. -/
def goodTy (t : Text) : Bool :=
  (tokens t).all tyTok && !(tokens t).isEmpty && typeText (tokens t) == t && isIdent t &&
    (endSt t == some .word || endSt t == some (.punct t!"&") || endSt t == some (.punct t!"*"))

theorem goodTy_ok {t : Text} (h : goodTy t = true) {c : Char} (hc : c = ' ' ∨ c = '(') : Ok (endSt t) c := by
  simp only [goodTy, Bool.and_eq_true, Bool.or_eq_true, beq_iff_eq] at h
  intro x hx
  rcases h.2 with (h | h) | h <;> (rw [h] at hx; cases hx; rcases hc with rfl | rfl <;> decide)

theorem goodTy_space {t : Text} (h : goodTy t = true) (R : Text) :
    tokens (t ++ ' ' :: R) = tokens t ++ tokens (' ' :: R) := tokens_ok _ _ _ (goodTy_ok h (.inl rfl))

theorem goodTy_paren {t : Text} (h : goodTy t = true) (R : Text) :
    tokens (t ++ '(' :: R) = tokens t ++ tokens ('(' :: R) := tokens_ok _ _ _ (goodTy_ok h (.inr rfl))

theorem goodTy_head {t : Text} (h : goodTy t = true) :
    ∃ c cs, t = c :: cs ∧ wordChar c = true := by
  simp only [goodTy, Bool.and_eq_true] at h
  cases t with
  | nil => exact absurd h.1.2 (by simp [isIdent])
  | cons c cs =>
    have := h.1.2
    simp only [isIdent, Bool.and_eq_true] at this
    exact ⟨_, _, rfl, this.1⟩

theorem goodTy_toks {t : Text} (h : goodTy t = true) :
    (∀ x ∈ tokens t, tyTok x = true) ∧ tokens t ≠ [] ∧ typeText (tokens t) = t := by
  simp only [goodTy, Bool.and_eq_true, List.all_eq_true, Bool.not_eq_true', List.isEmpty_eq_false_iff,
    beq_iff_eq] at h
  exact ⟨h.1.1.1.1, h.1.1.1.2, h.1.1.2⟩

theorem less_word {c : Char} (h : wordChar c = true) : Ok (some (.punct t!"<")) c := by
  intro x hx
  cases hx
  have h1 : t!"<" ++ [c] ∉ longPuncts := by
    intro hl
    have hl := (longPuncts_last _ _ hl).1
    have key : ∀ d ∈ [('>' : Char), '+', '-', '<', '=', '&', '|', '.', ':', '#', '*', '%'],
      wordChar d = false := by decide
    rw [key c hl] at h
    cases h
  simp only [Lexing.more]
  rw [if_neg (by simp), if_neg (by simp), if_neg (by simp), if_neg h1]

/-- The tokens of the type of a parameter. -/
def tyToks (p : Param) : List Text :=
  match p.mode with
  | .thunk => [t!"std", t!"::", t!"function", t!"<"] ++ tokens p.ty ++ [t!"(", t!")", t!">"]
  | _ => tokens p.ty

theorem tokens_white (R : Text) : tokens (' ' :: R) = tokens R := by
  show tokens (t!" " ++ R) = _
  rw [(sealed_white (a := t!" ") (by decide)).tokens]
  rfl

theorem arg_comma (a : Arg) (R : Text) :
    tokens (a.name ++ (t!", " ++ R)) = a.name :: t!"," :: tokens R := by
  rw [← List.append_assoc, (sealed_white (a := a.name ++ t!", ") (by cases a <;> decide)).tokens]
  cases a <;> rfl

theorem param_tokens (p : Param) (h : goodTy p.ty = true) (R : Text) :
    tokens (p.tyText ++ t!" " ++ p.arg.name ++ t!", " ++ R) =
      tyToks p ++ [p.arg.name, t!","] ++ tokens R := by
  have hv : tokens (p.ty ++ t!" " ++ p.arg.name ++ t!", " ++ R) =
      tokens p.ty ++ [p.arg.name, t!","] ++ tokens R := by
    simp only [List.append_assoc]
    show tokens (p.ty ++ ' ' :: (p.arg.name ++ (t!", " ++ R))) = _
    rw [goodTy_space h, tokens_white, arg_comma]
    simp
  cases hm : p.mode with
  | value => simpa only [Param.tyText, tyToks, hm] using hv
  | deref => simpa only [Param.tyText, tyToks, hm] using hv
  | thunk =>
    simp only [Param.tyText, tyToks, hm, List.append_assoc]
    obtain ⟨c, cs, hc, hw⟩ := goodTy_head h
    have e1 : tokens (t!"std::function<" ++ (p.ty ++ (t!"()>" ++ (t!" " ++ (p.arg.name ++ (t!", " ++ R)))))) =
        tokens t!"std::function<" ++ tokens (p.ty ++ (t!"()>" ++ (t!" " ++ (p.arg.name ++ (t!", " ++ R))))) := by
      conv => lhs; rw [hc]
      conv => rhs; rw [hc]
      exact tokens_ok _ _ _ (by rw [show endSt t!"std::function<" = some (.punct t!"<") by decide]; exact less_word hw)
    rw [e1]
    show _ ++ tokens (p.ty ++ '(' :: (t!")> " ++ (p.arg.name ++ (t!", " ++ R)))) = _
    rw [goodTy_paren h]
    show _ ++ (_ ++ tokens (t!"()> " ++ (p.arg.name ++ (t!", " ++ R)))) = _
    rw [(sealed_white (a := t!"()> ") (by decide)).tokens, arg_comma,
      show tokens t!"std::function<" = [t!"std", t!"::", t!"function", t!"<"] by decide,
      show tokens t!"()> " = [t!"(", t!")", t!">"] by decide]
    simp

theorem params_tokens (ps : List Param) (h : ∀ p ∈ ps, goodTy p.ty = true) (R : Text) :
    tokens (renderParams ps ++ R) = ps.flatMap (fun p => tyToks p ++ [p.arg.name, t!","]) ++ tokens R := by
  induction ps with
  | nil => rfl
  | cons p ps ih =>
    simp only [renderParams, List.flatMap_cons]
    rw [List.append_assoc, param_tokens p (h p List.mem_cons_self),
      ih fun q hq => h q (List.mem_cons_of_mem _ hq)]
    simp

/-- Neither a parenthesis nor a comma. -/
def plainTok (t : Text) : Prop := t ≠ t!"(" ∧ t ≠ t!")" ∧ t ≠ t!","

instance (t : Text) : Decidable (plainTok t) := inferInstanceAs (Decidable (_ ∧ _))

theorem plain_of_ty {t : Text} (h : tyTok t = true) : plainTok t := by
  refine ⟨?_, ?_, ?_⟩ <;> (rintro rfl; revert h; decide)

theorem plain_arg (a : Arg) : plainTok a.name ∧ isIdent a.name = true := by cases a <;> decide

theorem readParams_plain (d : Nat) (cur xs R : List Text) (h : ∀ x ∈ xs, plainTok x) :
    readParams d cur (xs ++ R) = readParams d (cur ++ xs) R := by
  induction xs generalizing cur with
  | nil => simp
  | cons x xs ih =>
    obtain ⟨h1, h2, h3⟩ := h x List.mem_cons_self
    simp only [List.cons_append, readParams, h1, h2, h3, false_and, if_false]
    rw [ih _ fun y hy => h y (List.mem_cons_of_mem _ hy)]
    simp

theorem readParams_param (p : Param) (h : goodTy p.ty = true) (R : List Text) :
    readParams 0 [] (tyToks p ++ [p.arg.name, t!","] ++ R) =
      (readParams 0 [] R).map fun x => ((tyToks p ++ [p.arg.name]) :: x.1, x.2) := by
  have ht := fun x hx => plain_of_ty ((goodTy_toks h).1 x hx)
  have hn : ∀ x ∈ [p.arg.name], plainTok x := by simpa using (plain_arg p.arg).1
  have key : ∀ d cur, readParams d cur ([p.arg.name] ++ (t!"," :: R)) =
      readParams d (cur ++ [p.arg.name]) (t!"," :: R) := fun d cur => readParams_plain d cur _ _ hn
  have hv : readParams 0 [] (tokens p.ty ++ [p.arg.name, t!","] ++ R) =
      (readParams 0 [] R).map fun x => ((tokens p.ty ++ [p.arg.name]) :: x.1, x.2) := by
    rw [List.append_assoc, readParams_plain _ _ _ _ ht]
    show readParams 0 _ ([p.arg.name] ++ (t!"," :: R)) = _
    rw [key]
    simp [readParams]
  cases hm : p.mode with
  | value => simpa only [tyToks, hm] using hv
  | deref => simpa only [tyToks, hm] using hv
  | thunk =>
    simp only [tyToks, hm, List.append_assoc]
    rw [readParams_plain 0 [] [t!"std", t!"::", t!"function", t!"<"] _ (by decide),
      readParams_plain _ _ _ _ ht]
    show readParams 0 _ (t!"(" :: t!")" :: ([t!">"] ++ ([p.arg.name] ++ (t!"," :: R)))) = _
    rw [readParams, if_neg (by decide), if_neg (by decide), readParams, if_neg (by decide),
      if_neg (by decide)]
    simp only [if_true]
    rw [if_neg (by decide : ¬ t!")" = t!"("), readParams_plain _ _ _ _ (by decide), key]
    simp [readParams]

theorem readParams_params (ps : List Param) (h : ∀ p ∈ ps, goodTy p.ty = true) (R : List Text) :
    readParams 0 [] (ps.flatMap (fun p => tyToks p ++ [p.arg.name, t!","]) ++
        (t!"int" :: t!"local_mutation_id" :: t!")" :: R)) =
      some (ps.map (fun p => tyToks p ++ [p.arg.name]) ++ [[t!"int", t!"local_mutation_id"]], R) := by
  induction ps with
  | nil => rfl
  | cons p ps ih =>
    rw [List.flatMap_cons, List.append_assoc, readParams_param p (h p List.mem_cons_self),
      ih fun q hq => h q (List.mem_cons_of_mem _ hq)]
    rfl

theorem splitName_append {xs : List Text} {x : Text} (h : isIdent x = true) (hx : xs ≠ []) :
    splitName (xs ++ [x]) = some (xs, x) := by
  have : 0 < xs.length := List.length_pos_iff.mpr hx
  simp [splitName, h, this]

theorem tyToks_ne {p : Param} (h : goodTy p.ty = true) : tyToks p ≠ [] := by
  have := (goodTy_toks h).2.1
  cases hm : p.mode <;> simp [tyToks, hm, this]

theorem mapM_split (ps : List Param) (h : ∀ p ∈ ps, goodTy p.ty = true) :
    (ps.map (fun p => tyToks p ++ [p.arg.name]) ++ [[t!"int", t!"local_mutation_id"]]).mapM splitName =
      some (ps.map (fun p => (tyToks p, p.arg.name)) ++ [([t!"int"], t!"local_mutation_id")]) := by
  induction ps with
  | nil => rfl
  | cons p ps ih =>
    rw [List.map_cons, List.cons_append, List.mapM_cons,
      splitName_append (plain_arg p.arg).2 (tyToks_ne (h p List.mem_cons_self)),
      ih fun q hq => h q (List.mem_cons_of_mem _ hq)]
    rfl

/-- What the reader needs to know about a function. -/
structure MutFn.Plain (f : MutFn) : Prop where
  res : goodTy f.resTy = true
  nam : wordText f.name = true
  tys : ∀ p ∈ f.params, goodTy p.ty = true
  body : ∀ x ∈ f.lines, lineOk x = true
  fin : f.tail = t!"}\n" ∨ f.tail = t!"}\n\n"

/-- The function as read. -/
def MutFn.read (f : MutFn) : CFn where
  resTy := tokens f.resTy
  name := f.name
  params := f.params.map (fun p => ⟨tyToks p, p.arg.name⟩) ++ [⟨[t!"int"], t!"local_mutation_id"⟩]
  body := f.lines.map (lineStmt f.mode)

theorem name_paren {t : Text} (h : wordText t = true) (R : Text) :
    tokens (t ++ '(' :: R) = t :: t!"(" :: tokens R := by
  obtain ⟨h1, h2, -⟩ := tokens_word h
  rw [tokens_ok, h1]
  · have hs : Sealed t!"(" := by
      intro c x hx
      rw [show endSt t!"(" = some (.punct t!"(") by decide] at hx
      cases hx
      have : t!"(" ++ [c] ∉ longPuncts := fun hl => (longPuncts_last _ _ hl).2.2.1 (by simp)
      simp only [Lexing.more]
      rw [if_neg (by simp), if_neg (by simp), if_neg (by simp), if_neg this]
    show _ :: tokens (t!"(" ++ R) = _
    rw [hs.tokens]
    rfl
  · intro x hx
    rw [h2] at hx
    cases hx
    rfl

/-- The tokens of a function. -/
def MutFn.toks (f : MutFn) : List Text :=
  t!"static" :: (tokens f.resTy ++ f.name :: t!"(" ::
    (f.params.flatMap (fun p => tyToks p ++ [p.arg.name, t!","]) ++
      (t!"int" :: t!"local_mutation_id" :: t!")" :: t!"{" :: (f.lines.flatMap (lineToks f.mode) ++ [t!"}"]))))

theorem fn_tokens (f : MutFn) (h : f.Plain) (R : Text) : tokens (f.render ++ R) = f.toks ++ tokens R := by
  simp only [MutFn.render, List.append_assoc]
  rw [(sealed_white (a := t!"static ") (by decide)).tokens]
  show _ ++ tokens (f.resTy ++ ' ' :: (f.name ++ '(' :: (renderParams f.params ++
    (t!"int local_mutation_id) {\n" ++ (f.lines.flatMap (Line.render f.mode) ++ (f.tail ++ R)))))) = _
  rw [goodTy_space h.res, tokens_white, name_paren h.nam]
  rw [params_tokens _ h.tys, (sealed_white (a := t!"int local_mutation_id) {\n") (by decide)).tokens,
    lines_tokens _ _ h.body]
  have : tokens (f.tail ++ R) = t!"}" :: tokens R := by
    rcases h.fin with e | e <;> rw [e] <;> rw [(sealed_white (by decide)).tokens] <;> rfl
  rw [this, show tokens t!"static " = [t!"static"] by decide,
    show tokens t!"int local_mutation_id) {\n" = [t!"int", t!"local_mutation_id", t!")", t!"{"] by decide]
  simp [MutFn.toks]

theorem takeWhile_paren (xs R : List Text) (h : ∀ x ∈ xs, x ≠ t!"(") :
    (xs ++ t!"(" :: R).takeWhile (· ≠ t!"(") = xs ∧
      (xs ++ t!"(" :: R).dropWhile (· ≠ t!"(") = t!"(" :: R := by
  induction xs with
  | nil => simp
  | cons x xs ih =>
    have := ih fun y hy => h y (List.mem_cons_of_mem _ hy)
    have hx := h x List.mem_cons_self
    simp only [List.cons_append, List.takeWhile_cons, List.dropWhile_cons]
    simp only [hx, ne_eq, not_false_eq_true, decide_true, if_true]
    exact ⟨by rw [this.1], this.2⟩

theorem fn_read (f : MutFn) (h : f.Plain) (R : List Text) : readFn (f.toks ++ R) = some (f.read, R) := by
  obtain ⟨-, -, hi, -⟩ := tokens_word h.nam
  have hne : ∀ x ∈ tokens f.resTy ++ [f.name], x ≠ t!"(" := by
    intro x hx
    rcases List.mem_append.mp hx with hx | hx
    · exact (plain_of_ty ((goodTy_toks h.res).1 x hx)).1
    · simp only [List.mem_singleton] at hx
      rintro rfl
      rw [← hx] at hi
      revert hi
      decide
  have hsplit := splitName_append hi (goodTy_toks h.res).2.1
  have hst := takeWhile_paren (tokens f.resTy ++ [f.name])
    (f.params.flatMap (fun p => tyToks p ++ [p.arg.name, t!","]) ++
      (t!"int" :: t!"local_mutation_id" :: t!")" :: t!"{" ::
        (f.lines.flatMap (lineToks f.mode) ++ t!"}" :: R))) hne
  have hshape : f.toks ++ R = t!"static" :: ((tokens f.resTy ++ [f.name]) ++ t!"(" ::
    (f.params.flatMap (fun p => tyToks p ++ [p.arg.name, t!","]) ++
      (t!"int" :: t!"local_mutation_id" :: t!")" :: t!"{" ::
        (f.lines.flatMap (lineToks f.mode) ++ t!"}" :: R)))) := by
    simp [MutFn.toks]
  rw [hshape, readFn, want_self]
  simp only [Option.bind_some]
  rw [hst.1, hst.2, hsplit]
  simp only [Option.bind_some, want_self]
  rw [readParams_params _ h.tys]
  simp only [Option.bind_some]
  rw [mapM_split _ h.tys]
  simp only [Option.bind_some, want_self]
  rw [lines_read _ _ h.body]
  · simp [MutFn.read]
  · have := lines_length f.mode f.lines
    simp only [List.length_append, List.length_cons]
    omega

/-- A sequence of functions is read back. -/
theorem fns_read (fs : List MutFn) (h : ∀ f ∈ fs, f.Plain) :
    readFns (fs.flatMap MutFn.render) = some (fs.map MutFn.read) := by
  have ht : tokens (fs.flatMap MutFn.render) = fs.flatMap MutFn.toks := by
    induction fs with
    | nil => rfl
    | cons f fs ih =>
      rw [List.flatMap_cons, fn_tokens f (h f List.mem_cons_self),
        ih fun g hg => h g (List.mem_cons_of_mem _ hg)]
      rfl
  rw [readFns, ht]
  have key : ∀ n, (fs.flatMap MutFn.toks).length ≤ n →
      readFnsN n (fs.flatMap MutFn.toks) = some (fs.map MutFn.read) := by
    clear ht
    induction fs with
    | nil => intro n _; cases n <;> rfl
    | cons f fs ih =>
      intro n hn
      obtain ⟨m, rfl⟩ : ∃ m, n = m + 1 := ⟨n - 1, by simp [MutFn.toks] at hn; omega⟩
      have hne : ∃ x xs, (f :: fs).flatMap MutFn.toks = x :: xs := ⟨_, _, rfl⟩
      obtain ⟨x, xs, hx⟩ := hne
      have hr := fn_read f (h f List.mem_cons_self) (fs.flatMap MutFn.toks)
      rw [List.flatMap_cons] at hx
      rw [List.flatMap_cons, hx, readFnsN, ← hx, hr]
      · simp only [Option.bind_some]
        rw [ih (fun g hg => h g (List.mem_cons_of_mem _ hg)) m
          (by simp [MutFn.toks] at hn ⊢; omega)]
        rfl
      · intro h; cases h
  exact key _ (Nat.le_refl _)

end Dredd
