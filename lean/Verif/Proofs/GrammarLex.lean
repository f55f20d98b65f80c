/-
Instrumented programs are programs (C62): the tokens of the instrumented text are those of the
trees.
-/
import Verif.Proofs.Grammar
import Verif.Proofs.LexEdits

namespace Dredd

/-! ### Texts that are read one after the other -/

/-- After the lexeme `st`, the text `a` consists of the tokens `ts`, and what may come after the
lexeme `st'` may come after it. -/
structure Reads (st : Option Lexing) (a : Text) (ts : List Text) (st' : Option Lexing) : Prop where
  first : ∀ c cs, a = c :: cs → Ok st c
  toks : tokens a = ts
  last : ∀ c, Ok st' c → Ok (if a = [] then st else endSt a) c

theorem ok_none (c : Char) : Ok none c := fun _ h => by cases h

theorem Reads.nil (st : Option Lexing) : Reads st [] [] st := ⟨by simp, rfl, by simp⟩

theorem Reads.append {st st1 st2 : Option Lexing} {a b : Text} {ts us : List Text}
    (ha : Reads st a ts st1) (hb : Reads st1 b us st2) : Reads st (a ++ b) (ts ++ us) st2 := by
  cases a with
  | nil =>
    have hts : ts = [] := ha.toks.symm
    subst hts
    have hl := ha.last
    simp only [if_true] at hl
    refine ⟨fun c cs h => hl c (hb.first c cs h), by simpa using hb.toks, fun c hc => ?_⟩
    have := hb.last c hc
    simp only [List.nil_append]
    split
    · rename_i h
      simp only [h, if_true] at this
      exact hl c this
    · rename_i h
      simpa [h] using this
  | cons d ds =>
    have hl := ha.last
    simp only [List.cons_ne_nil, if_false, reduceCtorEq] at hl
    cases b with
    | nil =>
      have hus : us = [] := hb.toks.symm
      subst hus
      have hl' := hb.last
      simp only [if_true] at hl'
      simp only [List.append_nil]
      exact ⟨ha.first, ha.toks, fun c hc => by simpa using hl c (hl' c hc)⟩
    | cons c cs =>
      have hok := hl c (hb.first c cs rfl)
      refine ⟨?_, ?_, fun e he => ?_⟩
      · intro e es he
        simp only [List.cons_append, List.cons.injEq] at he
        exact ha.first e ds (by simp [he.1])
      · rw [tokens_ok _ _ _ hok, ha.toks, hb.toks]
      · have := hb.last e he
        simp only [reduceCtorEq, if_false, List.cons_append] at this ⊢
        rw [show d :: (ds ++ c :: cs) = (d :: ds) ++ c :: cs from rfl, endSt_append _ _ _ hok]
        exact this

/-- What was read counts for less. -/
theorem Reads.any {st : Option Lexing} {a : Text} {ts : List Text} (h : Reads st a ts none)
    (st' : Option Lexing) : Reads st a ts st' := ⟨h.first, h.toks, fun c _ => h.last c (ok_none c)⟩

theorem Reads.raw {st : Option Lexing} {a : Text} (ha : a ≠ []) (h : ∀ c cs, a = c :: cs → Ok st c) :
    Reads st a (tokens a) (endSt a) := ⟨h, rfl, fun c hc => by simpa [ha] using hc⟩

theorem Reads.done {st : Option Lexing} {a : Text} {s : Lexing} (h : ∀ c cs, a = c :: cs → Ok st c)
    (he : endSt a = some s) (hd : Done s) : Reads st a (tokens a) none := by
  have hne : a ≠ [] := by rintro rfl; cases he
  refine ⟨h, rfl, fun c _ => ?_⟩
  rw [if_neg hne, he]
  intro x hx
  cases hx
  exact hd c

/-- The same after something else. -/
theorem Reads.restart {st st' : Option Lexing} {a : Text} {ts : List Text} (h : Reads none a ts st')
    (ha : a ≠ []) (hf : ∀ c cs, a = c :: cs → Ok st c) : Reads st a ts st' := by
  refine ⟨hf, h.toks, ?_⟩
  have := h.last
  rw [if_neg ha] at this ⊢
  exact this

/-- A state in which a word may follow. -/
def Free (st : Option Lexing) : Prop := ∀ s, st = some s → s.closed = true ∧ s.isWord = false

/-- A state that is neither inside a comment nor inside a literal. -/
def Whole (st : Option Lexing) : Prop := ∀ s, st = some s → s.closed = true

theorem free_none : Free none := fun _ h => by cases h
theorem whole_none : Whole none := fun _ h => by cases h

theorem Whole.ok {st : Option Lexing} (h : Whole st) {c : Char} (hc : apartChar c = true) : Ok st c :=
  fun s hs => more_apart (h s hs) hc

theorem Free.ok {st : Option Lexing} (h : Free st) {c : Char} (hc : wordChar c = true)
    (hd : c.isDigit = false) : Ok st c := by
  intro s hs
  obtain ⟨h1, h2⟩ := h s hs
  cases s with
  | white => rfl
  | comment => rfl
  | word => cases h2
  | literal => cases h2
  | number e => cases h2
  | line => cases h1
  | block _ => cases h1
  | quote _ _ => cases h1
  | punct u =>
    have key : ∀ d ∈ [('>' : Char), '+', '-', '<', '=', '&', '|', '.', ':', '#', '*', '%'],
      wordChar d = false := by decide
    have h3 : u ++ [c] ∉ longPuncts := by
      intro hl
      rw [key c (longPuncts_last _ _ hl).1] at hc
      cases hc
    have hn := wordChar_ne hc
    have h4 : c ≠ '*' := by rintro rfl; revert hc; decide
    simp [Lexing.more, h3, hn, h4, hd]

/-- A fixed text that ends with a bracket, a separator or white space. -/
def litOk (t : Text) : Bool := t.dropLast.all dullChar && t.getLast?.any sealChar

theorem litOk_seals {t : Text} (h : litOk t = true) : Seals t := by
  simp only [litOk, Bool.and_eq_true] at h
  cases hl : t.getLast? with
  | none => simp [hl] at h
  | some c =>
    simp only [hl, Option.any_some] at h
    obtain ⟨ys, rfl⟩ := List.getLast?_eq_some_iff.mp hl
    exact ⟨ys, c, rfl, plain_of_dull (by simpa using h.1), h.2⟩

theorem lit_reads {st : Option Lexing} {t : Text} (h : litOk t = true)
    (hf : ∀ c cs, t = c :: cs → Ok st c) : Reads st t (tokens t) none := by
  obtain ⟨s, h1, h2⟩ := (litOk_seals h).done
  exact Reads.done hf h1 h2

theorem lit_none {t : Text} (h : litOk t = true) : Reads none t (tokens t) none :=
  lit_reads h fun c _ _ => ok_none c

theorem lit_shut {st : Option Lexing} (hs : Whole st) {t : Text} (h : litOk t = true)
    (hc : t.head?.all apartChar = true) : Reads st t (tokens t) none := by
  refine lit_reads h ?_
  rintro c cs rfl
  exact hs.ok (by simpa using hc)

theorem word_reads {st : Option Lexing} (h : Free st) {w : Text} (hw : wordText w = true) :
    Reads st w [w] (some .word) := by
  obtain ⟨h1, h2, -, c, cs, h3, -⟩ := tokens_word hw
  have := Reads.raw (st := st) (a := w) (by rintro rfl; cases hw) ?_
  · rwa [h1, h2] at this
  · rintro d ds rfl
    simp only [wordText, Bool.and_eq_true, Bool.not_eq_true'] at hw
    exact h.ok hw.1.1 hw.1.2

theorem num_reads {st : Option Lexing} (n : Nat) (h : ∀ c cs, natDec n = c :: cs → Ok st c) :
    Reads st (natDec n) [natDec n] (some (.number false)) := by
  have := Reads.raw (st := st) (natDec_spec n).1 h
  rwa [tokens_natDec, natDec_endSt] at this

theorem num_none (n : Nat) : Reads none (natDec n) [natDec n] (some (.number false)) :=
  num_reads n fun c _ _ => ok_none c

theorem lexFrom_block (u t : Text) (h : '*' ∉ t) :
    lexFrom (.block false) u (t ++ t!"*/") = [(.comment, u ++ t ++ t!"*/")] := by
  induction t generalizing u with
  | nil => simp [lexFrom, Lexing.more]
  | cons c cs ih =>
    have hc : c ≠ '*' := fun e => h (by simp [e])
    have : Lexing.more (.block false) c = some (.block false) := by simp [Lexing.more, hc]
    simp [lexFrom, this, ih _ fun hm => h (List.mem_cons_of_mem _ hm)]

theorem lexEnd_block (t : Text) (h : '*' ∉ t) : lexEnd (.block false) (t ++ t!"*/") = .comment := by
  induction t with
  | nil => rfl
  | cons c cs ih =>
    have hc : c ≠ '*' := fun e => h (by simp [e])
    have : Lexing.more (.block false) c = some (.block false) := by simp [Lexing.more, hc]
    simp only [List.cons_append, lexEnd, this, Option.getD_some]
    exact ih fun hm => h (List.mem_cons_of_mem _ hm)

/-- The comment and the bracket after the name of a function. -/
theorem open_reads (o : Options) (node : Text) (h : o.showAst = true → '*' ∉ node) :
    Reads (some .word) (nodeComment o node ++ t!"(") [t!"("] none := by
  unfold nodeComment
  split
  · rename_i hs
    have h := h hs
    have hc : Reads (some .word) (t!"/*" ++ node ++ t!"*/") [] none := by
      have he : t!"/*" ++ node ++ t!"*/" = '/' :: '*' :: (node ++ t!"*/") := by simp
      have ht : tokens (t!"/*" ++ node ++ t!"*/") = [] := by
        rw [he]
        have : lexemes ('/' :: '*' :: (node ++ t!"*/")) =
            lexFrom (.block false) ['/', '*'] (node ++ t!"*/") := rfl
        simp [tokens, this, lexFrom_block _ _ h, Lexing.isToken]
      have := Reads.done (st := some .word) (a := t!"/*" ++ node ++ t!"*/") (s := .comment) ?_ ?_
        fun _ => rfl
      · rwa [ht] at this
      · intro c cs hx
        rw [he] at hx
        cases hx
        intro s hs
        cases hs
        rfl
      · rw [he]
        show some (lexEnd (.block false) (node ++ t!"*/")) = _
        rw [lexEnd_block _ h]
    exact hc.append (lit_none (by decide))
  · refine lit_shut ?_ (by decide) (by decide)
    rintro s hs
    cases hs
    rfl

/-- `name/*node*/(`. -/
theorem head_reads {st : Option Lexing} (hs : Free st) {f : Text} (hf : wordText f = true) (o : Options)
    (node : Text) (h : o.showAst = true → '*' ∉ node) :
    Reads st (f ++ nodeComment o node ++ t!"(") [f, t!"("] none := by
  have := (word_reads hs hf).append (open_reads o node h)
  simpa using this

/-- `, id)`. -/
theorem id_reads {st : Option Lexing} (hs : Whole st) (id : Nat) :
    Reads st (t!", " ++ natDec id ++ t!")") [t!",", natDec id, t!")"] none := by
  refine ((lit_shut hs (t := t!", ") (by decide) (by decide)).append (num_none id)).append
    (lit_shut (t := t!")") ?_ (by decide) (by decide))
  rintro s hs
  cases hs
  rfl

theorem call_reads {st stx : Option Lexing} (hs : Free st) {f : Text} (hf : wordText f = true) (o : Options)
    (node : Text) (h : o.showAst = true → '*' ∉ node) {x : Text} {ts : List Text} (hx : Reads none x ts stx)
    (hsx : Whole stx) (id : Nat) :
    Reads st (callText (f ++ nodeComment o node) x id) ([f, t!"("] ++ ts ++ [t!",", natDec id, t!")"])
      none := by
  have := ((head_reads hs hf o node h).append hx).append (id_reads hsx id)
  simpa [callText] using this

theorem call_reads' {st stx : Option Lexing} (hs : Free st) {f : Text} (hf : wordText f = true)
    {x : Text} {ts : List Text} (hx : Reads none x ts stx) (hsx : Whole stx) (id : Nat) :
    Reads st (callText f x id) ([f, t!"("] ++ ts ++ [t!",", natDec id, t!")"]) none := by
  have := call_reads hs hf ⟨false, false, false, false⟩ [] (by simp) hx hsx id
  simpa [nodeComment] using this

/-! ### Arguments -/

theorem ty_reads {st : Option Lexing} (hs : Free st) {ty : Text} (h : goodTy ty = true) :
    Reads st ty (tokens ty) (endSt ty) := by
  have h' := h
  simp only [goodTy, Bool.and_eq_true] at h'
  refine Reads.raw ?_ ?_
  · rintro rfl
    exact absurd h'.1.2 (by simp [isIdent])
  · rintro c cs rfl
    have := h'.1.2
    simp only [isIdent, Bool.and_eq_true, Bool.not_eq_true'] at this
    exact hs.ok this.1 this.2

theorem ty_shut {ty : Text} (h : goodTy ty = true) : Whole (endSt ty) := by
  simp only [goodTy, Bool.and_eq_true, Bool.or_eq_true, beq_iff_eq] at h
  rintro s hs
  rcases h.2 with (h | h) | h <;> (rw [h] at hs; cases hs; rfl)

theorem ty_greater {ty : Text} (h : goodTy ty = true) : Ok (endSt ty) '>' := by
  simp only [goodTy, Bool.and_eq_true, Bool.or_eq_true, beq_iff_eq] at h
  intro x hx
  rcases h.2 with (h | h) | h <;> (rw [h] at hx; cases hx; decide)

theorem cast_reads {stx : Option Lexing} {a : Text} {as : List Text} (ha : Reads none a as (some (.punct t!"<")))
    {ty : Text} (hty : goodTy ty = true) {x : Text} {ts : List Text} (hx : Reads none x ts stx) :
    Reads none (a ++ ty ++ t!">(" ++ x) (as ++ tokens ty ++ [t!">", t!"("] ++ ts) stx := by
  refine ((ha.append (ty_reads ?_ hty)).append (lit_reads (t := t!">(") (by decide) ?_)).append hx
  · rintro s hs
    cases hs
    exact ⟨rfl, rfl⟩
  · rintro c cs h
    cases h
    exact ty_greater hty

theorem thunkE_reads {stx : Option Lexing} (c : Bool) {ty : Text} (hty : goodTy ty = true) {x : Text}
    {t : Tree} (hx : Reads none x t.yield stx) (hs : Whole stx) :
    Reads none (thunkE c ty x) (Tree.lambda ty (if c then t else .cast ty t)).yield none := by
  have h1 := (lit_none (t := t!"[&]() -> ") (by decide)).append (ty_reads free_none hty)
  have hyt : ∀ ts : List Text, Tree.yieldL (ts.map .tok) = ts := by
    intro ts
    induction ts with
    | nil => rfl
    | cons t ts ih => simp [Tree.yieldL, Tree.yield, ih]
  unfold thunkE
  cases c with
  | true =>
    have h2 := ((h1.append (lit_shut (t := t!" { return ") (ty_shut hty) (by decide) (by decide))).append
      hx).append (lit_shut (t := t!"; }") hs (by decide) (by decide))
    simp only [if_true]
    rw [show (Tree.lambda ty t).yield = tokens t!"[&]() -> " ++ tokens ty ++ tokens t!" { return " ++ t.yield ++
      tokens t!"; }" from ?_]
    · exact h2
    · rw [show tokens t!"[&]() -> " = [t!"[", t!"&", t!"]", t!"(", t!")", t!"->"] by decide,
        show tokens t!" { return " = [t!"{", t!"return"] by decide, show tokens t!"; }" = [t!";", t!"}"] by decide]
      simp [Tree.lambda, Tree.yield, Tree.yieldL, Tree.type, hyt, Tree.block, Tree.semi]
  | false =>
    have h2 := h1.append (b := t!" { return static_cast<") (us := tokens t!" { return static_cast<")
      (st2 := some (.punct t!"<")) (Reads.raw (by simp) (by
        rintro c cs h
        cases h
        exact (ty_shut hty).ok (by decide)))
    have h3 := (cast_reads h2 hty hx).append (lit_shut (t := t!"); }") hs (by decide) (by decide))
    simp only [Bool.false_eq_true, if_false, thunk]
    rw [show (Tree.lambda ty (Tree.cast ty t)).yield = tokens t!"[&]() -> " ++ tokens ty ++
      tokens t!" { return static_cast<" ++ tokens ty ++ [t!">", t!"("] ++ t.yield ++
      tokens t!"); }" from ?_]
    · exact h3
    · rw [show tokens t!"[&]() -> " = [t!"[", t!"&", t!"]", t!"(", t!")", t!"->"] by decide,
        show tokens t!" { return static_cast<" = [t!"{", t!"return", t!"static_cast", t!"<"] by decide,
        show tokens t!"); }" = [t!")", t!";", t!"}"] by decide]
      simp [Tree.lambda, Tree.yield, Tree.yieldL, Tree.type, hyt, Tree.block, Tree.semi, Tree.cast]

theorem addr_reads {stx : Option Lexing} {x : Text} {t : Tree} (hx : Reads none x t.yield stx)
    (hs : Whole stx) : Reads none (t!"&(" ++ x ++ t!")") (Tree.addr t).yield none := by
  have := ((lit_none (t := t!"&(") (by decide)).append hx).append
    (lit_shut (t := t!")") hs (by decide) (by decide))
  rw [show tokens t!"&(" = [t!"&", t!"("] by decide, show tokens t!")" = [t!")"] by decide] at this
  simpa [Tree.addr, Tree.paren, Tree.yield, Tree.yieldL] using this

theorem paren_reads {stx : Option Lexing} {x : Text} {t : Tree} (hx : Reads none x t.yield stx)
    (hs : Whole stx) (b : Bool) :
    ∃ st, Reads none (paren b x) (if b then Tree.paren t else t).yield st ∧ Whole st := by
  cases b with
  | false => exact ⟨_, hx, hs⟩
  | true =>
    refine ⟨none, ?_, whole_none⟩
    have := ((lit_none (t := t!"(") (by decide)).append hx).append
      (lit_shut (t := t!")") hs (by decide) (by decide))
    rw [show tokens t!"(" = [t!"("] by decide, show tokens t!")" = [t!")"] by decide] at this
    simpa [paren, Tree.paren, Tree.yield, Tree.yieldL] using this

/-- The text of an argument. -/
def Param.passText (p : Param) (const : Bool) (x : Text) : Text :=
  match p.mode with
  | .thunk => thunkE const p.ty x
  | .deref => t!"&(" ++ x ++ t!")"
  | .value => x

theorem pass_reads {p : Param} (hp : goodTy p.ty = true) (c : Bool) {stx : Option Lexing} {x : Text}
    {t : Tree} (hx : Reads none x t.yield stx) (hs : Whole stx) :
    ∃ st, Reads none (p.passText c x) (p.pass c t).yield st ∧ Whole st ∧
      (p.mode = .value → st = stx) ∧ (p.mode ≠ .value → st = none) := by
  unfold Param.passText Param.pass
  cases p.mode with
  | value => exact ⟨stx, hx, hs, fun _ => rfl, fun h => absurd rfl h⟩
  | thunk => exact ⟨none, thunkE_reads c hp hx hs, whole_none, (fun h => by cases h), fun _ => rfl⟩
  | deref => exact ⟨none, addr_reads hx hs, whole_none, (fun h => by cases h), fun _ => rfl⟩


/-! ### Points -/

theorem lastLex_endSt (t : Text) : lastLex t = endSt t := by
  have key : ∀ (t : Text) (s : Lexing) (u : Text),
      (lexFrom s u t).getLast?.map (·.1) = some (lexEnd s t) := by
    intro t
    induction t with
    | nil => intro s u; rfl
    | cons c cs ih =>
      intro s u
      simp only [lexFrom, lexEnd]
      cases hm : s.more c with
      | some s' => exact ih _ _
      | none =>
        have := ih (.start c) [c]
        simp only [Option.getD_none, ← this]
        cases hl : lexFrom (Lexing.start c) [c] cs with
        | nil => rw [hl] at this; cases this
        | cons x xs => rfl
  cases t with
  | nil => rfl
  | cons c cs => exact key cs _ _

theorem gap_reads {st : Option Lexing} {g : Text} (h : IsGap g) (ha : apart st g) :
    Reads st g [] (if g = [] then st else none) := by
  by_cases hg : g = []
  · subst hg
    exact Reads.nil st
  · rw [if_neg hg, ← h.1]
    obtain ⟨-, h | h | h⟩ := h
    · exact absurd h hg
    · rw [lastLex_endSt] at h
      exact Reads.done (fun c cs e s hs => ha s c cs hs e) h fun _ => rfl
    · rw [lastLex_endSt] at h
      exact Reads.done (fun c cs e s hs => ha s c cs hs e) h fun _ => rfl

theorem apart_none (t : Text) : apart none t := fun _ _ _ h => by cases h

theorem gap_none {g : Text} (h : IsGap g) : Reads none g [] none := by
  have := gap_reads h (apart_none g)
  split at this <;> exact this

theorem callTree_yield1 (f : MutFn) (p : Param) (c : Bool) (t : Tree) (id : Nat) (hf : f.params = [p]) :
    (f.callTree [(c, t)] id).yield = [f.name, t!"("] ++ (p.pass c t).yield ++ [t!",", natDec id, t!")"] := by
  simp [MutFn.callTree, hf, Tree.call, commaSep, Tree.yield, Tree.yieldL, Tree.name, Tree.num]

theorem callTree_yield2 (f : MutFn) (p q : Param) (c d : Bool) (t u : Tree) (id : Nat)
    (hf : f.params = [p, q]) :
    (f.callTree [(c, t), (d, u)] id).yield = [f.name, t!"("] ++ ((p.pass c t).yield ++ [t!","] ++
      (q.pass d u).yield) ++ [t!",", natDec id, t!")"] := by
  simp [MutFn.callTree, hf, Tree.call, commaSep, Tree.yield, Tree.yieldL, Tree.name, Tree.num]

theorem UnSite.reads (s : UnSite) (l : Lang) (o : Options) (id : Nat) (h : (Mutation.un s).Readable l)
    (hn : o.showAst = true → '*' ∉ s.node) {st stx : Option Lexing} (hs : Free st) {x : Text} {t : Tree}
    (hx : Reads none x t.yield stx) (hsx : Whole stx) :
    Reads st (s.wrapText l o id x) ((s.genFn l o id).callTree [(s.sub.cxx11Const, t)] id).yield none := by
  have hp := (s.fn_plain l o id h).1.tys ⟨.arg, s.inputTy l, s.mode l⟩ (by simp [UnSite.genFn])
  obtain ⟨st', hr, hw, -⟩ := pass_reads hp s.sub.cxx11Const hx hsx
  have := call_reads hs (s.name_word l o.optimise) o s.node hn hr hw id
  rw [callTree_yield1 _ _ _ _ _ rfl]
  have he : s.wrapText l o id x = callText (s.fnName l o.optimise ++ nodeComment o s.node)
      ((⟨.arg, s.inputTy l, s.mode l⟩ : Param).passText s.sub.cxx11Const x) id := by
    unfold UnSite.wrapText Param.passText UnSite.mode addr
    cases l.cpp <;> cases s.self.sideEffects <;> cases s.op.isIncDec <;> simp
  rw [he]
  exact this

theorem ExprSite.reads (s : ExprSite) (l : Lang) (o : Options) (id : Nat) (h : (Mutation.expr s).Readable l)
    (hn : o.showAst = true → '*' ∉ s.node) {st stx : Option Lexing}
    (hs : Free st ∨ s.precIdent = true ∧ Whole st) {x : Text} {t : Tree}
    (hx : Reads none x t.yield stx) (hsx : Whole stx) :
    Reads st (s.wrapText l o id x)
      (match s.initListCast with
        | some ty => Tree.cast (ty.name l) ((s.genFn l o id).callTree [(s.self.cxx11Const,
            if s.binOp = some BOp.comma then Tree.paren t else t)] id)
        | none => (s.genFn l o id).callTree [(s.self.cxx11Const,
            if s.binOp = some BOp.comma then Tree.paren t else t)] id).yield none := by
  have hp := (s.fn_plain l o id h).1.tys ⟨.arg, s.inputTy l, s.mode l⟩ (by simp [ExprSite.genFn])
  obtain ⟨st1, hr1, hw1⟩ := paren_reads hx hsx (s.binOp == some .comma)
  obtain ⟨st', hr, hw, -⟩ := pass_reads hp s.self.cxx11Const hr1 hw1
  have he : s.wrapText l o id x = (if s.precIdent then t!" " else []) ++ match s.initListCast with
      | some ty => t!"static_cast<" ++ ty.name l ++ t!">(" ++
          callText (s.fnName l o.optimise ++ nodeComment o s.node)
            ((⟨.arg, s.inputTy l, s.mode l⟩ : Param).passText s.self.cxx11Const
              (paren (s.binOp == some .comma) x)) id ++ t!")"
      | none => callText (s.fnName l o.optimise ++ nodeComment o s.node)
            ((⟨.arg, s.inputTy l, s.mode l⟩ : Param).passText s.self.cxx11Const
              (paren (s.binOp == some .comma) x)) id := by
    have harg : (if (l.cpp && s.self.sideEffects) = true then thunkE s.self.cxx11Const (s.inputTy l)
          (addr (!l.cpp && s.self.lvalue && (s.inputTy l).getLast? == some '*')
            (paren (s.binOp == some .comma) x))
        else addr (!l.cpp && s.self.lvalue && (s.inputTy l).getLast? == some '*')
            (paren (s.binOp == some .comma) x)) =
        (⟨.arg, s.inputTy l, s.mode l⟩ : Param).passText s.self.cxx11Const
              (paren (s.binOp == some .comma) x) := by
      unfold Param.passText ExprSite.mode addr
      cases hc : l.cpp with
      | true => cases s.self.sideEffects <;> simp
      | false =>
        cases hl : s.self.lvalue with
        | false => simp
        | true =>
          have hstar : (s.inputTy l).getLast? = some '*' := by
            have hnc := h hc hl
            simp only [ExprSite.inputTy, hc, cTypeModifiers, hl]
            cases hv : s.self.volatile with
            | true => simp [List.getLast?_cons, List.getLast?_append]
            | false =>
              have : s.self.const = false := by
                cases hk : s.self.const with
                | false => rfl
                | true => rw [hnc hk] at hv; cases hv
              simp [this]
          simp [hstar]
    unfold ExprSite.wrapText
    simp only [harg]
    cases s.initListCast <;> cases s.precIdent <;> simp
  rw [he]
  have hsp : ∃ st2, Free st2 ∧ Reads st (if s.precIdent then t!" " else []) [] st2 := by
    rcases hs with hs | ⟨hb, hs⟩
    · cases s.precIdent with
      | false => exact ⟨st, hs, Reads.nil st⟩
      | true =>
        have := lit_shut (t := t!" ") (fun s h => (hs s h).1) (by decide) (by decide)
        exact ⟨none, free_none, this⟩
    · have := lit_shut (t := t!" ") hs (by decide) (by decide)
      exact ⟨none, free_none, by rw [hb]; exact this⟩
  obtain ⟨st2, hf, hsp⟩ := hsp
  have hbool : (if (s.binOp == some .comma) = true then Tree.paren t else t) =
      if s.binOp = some .comma then Tree.paren t else t := by
    by_cases hb : s.binOp = some .comma <;> simp [hb]
  rw [hbool] at hr
  cases hi : s.initListCast with
  | none =>
    have := hsp.append (call_reads hf (s.name_word l o.optimise) o s.node hn hr hw id)
    simp only [callTree_yield1 (s.genFn l o id) ⟨.arg, s.inputTy l, s.mode l⟩ _ _ _ rfl]
    exact this
  | some ty =>
    have hc := call_reads free_none (s.name_word l o.optimise) o s.node hn hr hw id
    have hcast := cast_reads (a := t!"static_cast<") (as := [t!"static_cast", t!"<"])
      (by
        have := Reads.raw (st := none) (a := t!"static_cast<") (by simp) fun c _ _ => ok_none c
        exact this) (ty_plain l ty).1 hc
    have hall := hcast.append (lit_none (t := t!")") (by decide))
    have hall' := hall.restart (st := st2) (by simp) (by
      intro c cs h
      cases h
      exact hf.ok (by decide) (by decide))
    have := hsp.append hall'
    have hyt : ∀ ts : List Text, Tree.yieldL (ts.map .tok) = ts := by
      intro ts
      induction ts with
      | nil => rfl
      | cons t ts ih => simp [Tree.yieldL, Tree.yield, ih]
    rw [show tokens t!")" = [t!")"] by decide] at this
    have e : ∀ C : Tree, (Tree.cast (ty.name l) C).yield = [] ++ ([t!"static_cast", t!"<"] ++ tokens (ty.name l) ++
        [t!">", t!"("] ++ C.yield ++ [t!")"]) := by
      intro C
      simp [Tree.cast, Tree.yield, Tree.yieldL, Tree.type, hyt]
    simp only [e]
    rw [callTree_yield1 (s.genFn l o id) ⟨.arg, s.inputTy l, s.mode l⟩ _ _ _ rfl]
    exact this

theorem BinSite.reads (s : BinSite) (l : Lang) (o : Options) (id : Nat) (h : (Mutation.bin s).Readable l)
    (hn : o.showAst = true → '*' ∉ s.node) (hc : (!l.cpp && s.op.isLogical) = false)
    {st stx sty : Option Lexing} (hs : Free st) {x y g1 g2 : Text} {t u : Tree}
    (hx : Reads none x t.yield stx) (hsx : Whole stx) (hy : Reads none y u.yield sty) (hsy : Whole sty)
    (h1 : IsGap g1) (h2 : IsGap g2) (ha : apart stx (g1 ++ s.op.str)) :
    Reads st (s.wrapText l o id x g1 g2 y) ((s.genFn l o id).callTree [(false, t), (false, u)] id).yield
      none := by
  have hp1 := (s.fn_plain l o id h).1.tys ⟨.arg1, s.lhsTyText l, s.mode1 l⟩ (by simp [BinSite.genFn])
  have hp2 := (s.fn_plain l o id h).1.tys ⟨.arg2, s.rhs.ty.name l, s.mode2 l⟩ (by simp [BinSite.genFn])
  obtain ⟨st1, hr1, hw1, hv1, hv1'⟩ := pass_reads hp1 false hx hsx
  obtain ⟨st2, hr2, hw2, -⟩ := pass_reads hp2 false hy hsy
  have hg1 : Reads st1 (g1 ++ t!",") [t!","] none := by
    have ha1 : apart st1 g1 := by
      by_cases hm : (⟨.arg1, s.lhsTyText l, s.mode1 l⟩ : Param).mode = .value
      · rw [hv1 hm]
        intro s c cs hs hg
        exact ha s c (cs ++ _) hs (by rw [hg]; rfl)
      · rw [hv1' hm]
        exact apart_none _
    refine (gap_reads h1 ha1).append (lit_shut (t := t!",") ?_ (by decide) (by decide))
    split
    · exact hw1
    · exact whole_none
  have hall := call_reads hs (s.name_word l o.optimise) o s.node hn
    ((hr1.append hg1).append ((gap_none h2).append hr2)) hw2 id
  rw [callTree_yield2 _ ⟨.arg1, s.lhsTyText l, s.mode1 l⟩ ⟨.arg2, s.rhs.ty.name l, s.mode2 l⟩ _ _ _ _ _ rfl]
  have he : s.wrapText l o id x g1 g2 y = callText (s.fnName l o.optimise ++ nodeComment o s.node)
      ((⟨.arg1, s.lhsTyText l, s.mode1 l⟩ : Param).passText false x ++ (g1 ++ t!",") ++ (g2 ++
        (⟨.arg2, s.rhs.ty.name l, s.mode2 l⟩ : Param).passText false y)) id := by
    have e1 : (if l.cpp = true then if s.lhs.sideEffects = true then thunk (s.lhsTyText l) x else x
        else addr s.op.isAssign x) = (⟨.arg1, s.lhsTyText l, s.mode1 l⟩ : Param).passText false x := by
      unfold Param.passText BinSite.mode1 addr thunkE
      cases l.cpp <;> cases s.lhs.sideEffects <;> cases s.op.isAssign <;> simp
    have e2 : (if (l.cpp && (s.op.isLogical || s.rhs.sideEffects)) = true then
        thunk (s.rhs.ty.name l) y else y) =
        (⟨.arg2, s.rhs.ty.name l, s.mode2 l⟩ : Param).passText false y := by
      unfold Param.passText BinSite.mode2 thunkE
      cases l.cpp <;> cases s.op.isLogical <;> cases s.rhs.sideEffects <;> simp
    unfold BinSite.wrapText
    rw [hc]
    simp only [Bool.false_eq_true, if_false, e1, e2, List.append_assoc]
  rw [he]
  simpa [BinSite.genFn] using hall

theorem BinSite.logical_reads (s : BinSite) (l : Lang) (o : Options) (id : Nat)
    (hc : (!l.cpp && s.op.isLogical) = true)
    {st stx sty : Option Lexing} (hs : Free st) {x y g1 g2 : Text} {t u : Tree}
    (hx : Reads none x t.yield stx) (hsx : Whole stx) (hy : Reads none y u.yield sty) (hsy : Whole sty)
    (h1 : IsGap g1) (h2 : IsGap g2) (ha : apart stx (g1 ++ s.op.str)) :
    Reads st (s.wrapText l o id x g1 g2 y) ((cLogicalOuterFn s l o).callTree [(false,
      if o.track then .node (.expr s.op.levels.1) [t, .tok s.op.str, u]
      else .node (.expr s.op.levels.1) [(cLogicalLhsFn s l o).callTree [(false, t)] id, .tok s.op.str,
        (cLogicalRhsFn s l o).callTree [(false, u)] id])] id).yield none := by
  have hw (z : Text) (hz : z.all wordChar = true) := wordText_append (s.name_word l o.optimise) hz
  have hop : ∃ v, endSt s.op.str = some v ∧ Done v ∧ tokens s.op.str = [s.op.str] := by
    simp only [Bool.and_eq_true] at hc
    have hc := hc.2
    have key : ∀ u ∈ [t!"&&", t!"||"], ∀ w ∈ longPuncts, w.dropLast ≠ u := by decide
    have done : ∀ u ∈ [t!"&&", t!"||"], Done (.punct u) := by
      intro u hu c
      have : u ++ [c] ∉ longPuncts := fun h => key u hu _ h (by simp)
      have h1 : u ≠ t!"/" := by rintro rfl; revert hu; decide
      have h2 : u ≠ t!"." := by rintro rfl; revert hu; decide
      simp [Lexing.more, this, h1, h2]
    revert hc
    cases s.op <;> first | (intro hc; cases hc; done) | skip
    · intro; exact ⟨.punct t!"&&", rfl, done _ (by decide), by decide⟩
    · intro; exact ⟨.punct t!"||", rfl, done _ (by decide), by decide⟩
  obtain ⟨v, hv1, hv2, hv3⟩ := hop
  -- the operator between two operands
  have mid : ∀ (x y : Text) (t u : Tree) (stx sty : Option Lexing), Reads none x t.yield stx →
      Reads none y u.yield sty → apart stx (g1 ++ s.op.str) →
      Reads none (x ++ g1 ++ s.op.str ++ g2 ++ y)
        (Tree.node (.expr s.op.levels.1) [t, .tok s.op.str, u]).yield sty := by
    intro x y t u stx sty hx hy ha
    have hg := gap_reads (st := stx) h1 fun s c cs hs hg => ha s c (cs ++ _) hs (by rw [hg]; rfl)
    have ho := Reads.done (st := if g1 = [] then stx else none) (a := s.op.str) ?_ hv1 hv2
    · have := (((hx.append hg).append ho).append (gap_none h2)).append hy
      rw [hv3] at this
      simpa [Tree.yield, Tree.yieldL] using this
    · intro c cs hcs
      split
      · rename_i hg
        intro s' hs'
        exact ha s' c cs hs' (by rw [hg]; exact hcs)
      · exact ok_none c
  unfold BinSite.wrapText
  rw [hc]
  simp only [if_true]
  rw [callTree_yield1 _ ⟨.arg, s.resTy.name l, .value⟩ _ _ _ rfl]
  cases ht : o.track with
  | true =>
    simp only [if_true]
    exact call_reads' hs (hw t!"_outer" (by decide)) (mid _ _ _ _ _ _ hx hy ha) hsy id
  | false =>
    simp only [Bool.false_eq_true, if_false]
    have hl := call_reads' free_none (hw t!"_lhs" (by decide)) hx hsx id
    have hr := call_reads' free_none (hw t!"_rhs" (by decide)) hy hsy id
    have el := callTree_yield1 (cLogicalLhsFn s l o) ⟨.arg, s.lhs.ty.name l, .value⟩ false t id rfl
    have er := callTree_yield1 (cLogicalRhsFn s l o) ⟨.arg, s.rhs.ty.name l, .value⟩ false u id rfl
    refine call_reads' hs (hw t!"_outer" (by decide)) (mid _ _ _ _ none none ?_ ?_ (apart_none _))
      whole_none id
    · rw [el]
      exact hl
    · rw [er]
      exact hr


/-! ### Whole programs -/

theorem Lay.outL_append (l : Lang) (o : Options) (id : Nat) (a b : List Lay) :
    Lay.outL l o id (a ++ b) =
      Lay.outL l o id a ++ Lay.outL l o (id + countAll l o.optimise (Lay.mutsL a)) b := by
  induction a generalizing id with
  | nil => simp [Lay.outL, Lay.mutsL, countAll]
  | cons x xs ih => simp [Lay.outL, Lay.mutsL, ih, Nat.add_assoc]

theorem gapLay_out (l : Lang) (o : Options) (id : Nat) (g : Text) : Lay.outL l o id (gapLay g) = g := by
  unfold gapLay
  split
  · rename_i h; rw [h]; rfl
  · simp [Lay.outL, Lay.out]


/-- Neither inside a comment of several lines nor inside a literal. -/
def Known (st : Option Lexing) : Prop := ∀ s, st = some s → s.closed = true ∨ s = .line

theorem Known.whole {st : Option Lexing} (h : Known st) (hl : st ≠ some .line) : Whole st := by
  intro s hs
  rcases h s hs with h | rfl
  · exact h
  · exact absurd hs hl

theorem known_none : Known none := fun _ h => by cases h

theorem Known.free {st : Option Lexing} (h : Known st) (hn : NoWord st) : Free st := by
  intro s hs
  obtain ⟨h1, h2⟩ := hn s hs
  rcases h s hs with h | rfl
  · exact ⟨h, h1⟩
  · exact absurd rfl h2

theorem whole_closed {s : Lexing} (h : s.isWhole = true) : s.closed = true := by
  cases s <;> first | rfl | cases h

/-- What is needed of the points of a program. -/
def PointsOk (l : Lang) (o : Options) (ms : List Mutation) : Prop :=
  ∀ m ∈ ms, m.Readable l ∧ (o.showAst = true → '*' ∉ m.node)

theorem withSemi_yield (u b : Bool) (t : Tree) :
    Tree.yieldL (withSemi u b t) = t.yield ++ if b then [t!";"] else [] := by
  unfold withSemi
  cases b <;> cases u <;> simp [Tree.yieldL, Tree.yield, Tree.semi]

theorem ext_reads {st : Option Lexing} (hs : Known st) (hl : st ≠ some .line) {ext : Text}
    (ha : apart st ext) (s : StmtSite)
    (he : ext = [] ∨ lastLex ext = some .white ∨ lastLex ext = some .comment ∨
      lastLex ext = some (.punct t!";") ∨
      lastLex ext = some .line ∧ s.extComment = true ∧ s.extSemi = false) :
    Reads st ext (tokens ext) (if ext = [] then st else lastLex ext) ∧
      Known (if ext = [] then st else lastLex ext) ∧
      ((if ext = [] then st else lastLex ext) = some .line → s.extComment = true ∧ s.extSemi = false) := by
  by_cases h : ext = []
  · subst h
    exact ⟨Reads.nil st, hs, fun h => absurd h hl⟩
  · rw [if_neg h]
    refine ⟨?_, ?_, ?_⟩
    · rw [lastLex_endSt]
      exact Reads.raw h fun c cs e s hs => ha s c cs hs e
    · rintro s hs
      rcases he with he | he | he | he | he
      · exact absurd he h
      · rw [he] at hs; cases hs; exact .inl rfl
      · rw [he] at hs; cases hs; exact .inl rfl
      · rw [he] at hs; cases hs; exact .inl rfl
      · rw [he.1] at hs; cases hs; exact .inr rfl
    · intro hx
      rcases he with he | he | he | he | he
      · exact absurd he h
      · rw [he] at hx; cases hx
      · rw [he] at hx; cases hx
      · rw [he] at hx; cases hx
      · exact he.2

theorem StmtSite.reads (s : StmtSite) (o : Options) (id : Nat) (hn : o.showAst = true → '*' ∉ s.node)
    {st stx : Option Lexing} (hs : Free st) {x ext : Text} {t : Tree} {u : Bool} (hx : Reads none x t.yield stx)
    (hk : Known stx) (hl : stx ≠ some .line) (ha : apart stx ext)
    (hse : s.extSemi = true ↔ tokens ext = [t!";"]) (htok : tokens ext = [] ∨ tokens ext = [t!";"])
    (he : ext = [] ∨ lastLex ext = some .white ∨ lastLex ext = some .comment ∨
      lastLex ext = some (.punct t!";") ∨
      lastLex ext = some .line ∧ s.extComment = true ∧ s.extSemi = false) :
    Reads st (s.wrapText o id (x ++ ext))
      (Tree.yieldL (if o.track then
        .semi (.call t!"__dredd_record_covered_mutants" [.num id, .num 1]) ::
          withSemi u (tokens ext = [t!";"]) t
      else [.guarded t!"__dredd_enabled_mutation" id
        (withSemi u (tokens ext = [t!";"] || (!s.extSemi && s.nextHash)) t)]))
      (if ext = [] then stx else lastLex ext) := by
  obtain ⟨he1, he2, he3⟩ := ext_reads hk hl ha s he
  have hb : tokens ext = if s.extSemi then [t!";"] else [] := by
    rcases htok with h | h
    · have : s.extSemi = false := by
        cases hx : s.extSemi with
        | false => rfl
        | true => rw [hse.mp hx] at h; cases h
      rw [this, h]; rfl
    · rw [hse.mpr h, h]; rfl
  have hd : (decide (tokens ext = [t!";"])) = s.extSemi := by
    rw [hb]
    cases s.extSemi <;> rfl
  rw [hd]
  have hnum : Whole (some (.number false)) := fun s h => by cases h; rfl
  unfold StmtSite.wrapText
  cases ht : o.track with
  | true =>
    have h1 := head_reads hs (f := t!"__dredd_record_covered_mutants") (by decide) o s.node hn
    have h2 := ((h1.append (num_none id)).append (lit_shut (t := t!", 1); ") hnum (by decide)
      (by decide))).append (hx.append he1)
    rw [show tokens t!", 1); " = [t!",", t!"1", t!")", t!";"] by decide, hb] at h2
    simp only [if_true, Tree.yieldL, withSemi_yield]
    have e : (Tree.semi (.call t!"__dredd_record_covered_mutants" [.num id, .num 1])).yield =
        [t!"__dredd_record_covered_mutants", t!"("] ++ [natDec id] ++ [t!",", t!"1", t!")", t!";"] := by
      simp [Tree.semi, Tree.call, Tree.num, Tree.name, commaSep, Tree.yield, Tree.yieldL,
        show natDec 1 = t!"1" by decide]
    rw [e]
    simpa using h2
  | false =>
    refine Reads.any ?_ _
    have h0 : Reads st t!"if (!__dredd_enabled_mutation" [t!"if", t!"(", t!"!", t!"__dredd_enabled_mutation"]
        (some .word) := by
      have := Reads.raw (st := st) (a := t!"if (!__dredd_enabled_mutation") (by simp) ?_
      · rwa [show tokens t!"if (!__dredd_enabled_mutation" = [t!"if", t!"(", t!"!",
          t!"__dredd_enabled_mutation"] by decide, show endSt t!"if (!__dredd_enabled_mutation" = some .word
            by decide] at this
      · intro c cs h
        cases h
        exact hs.ok (by decide) (by decide)
    have h1 := ((h0.append (open_reads o s.node hn)).append (num_none id)).append
      (lit_shut (t := t!")) { ") hnum (by decide) (by decide))
    have h2 := h1.append (hx.append he1)
    have hnl : ∃ st2, Whole st2 ∧ Reads (if ext = [] then stx else lastLex ext)
        (if (s.extComment && !s.extSemi) = true then t!"\n" else []) [] st2 := by
      cases hc : (s.extComment && !s.extSemi) with
      | true =>
        refine ⟨none, whole_none, ?_⟩
        have := lit_reads (st := if ext = [] then stx else lastLex ext) (t := t!"\n") (by decide) ?_
        · exact this
        · intro c cs h v hv
          cases h
          rcases he2 v hv with h | rfl
          · exact more_apart h (by decide)
          · rfl
      | false =>
        refine ⟨_, he2.whole ?_, Reads.nil _⟩
        intro h
        have := he3 h
        simp [this] at hc
    obtain ⟨st2, hw2, hnl⟩ := hnl
    have hsm : ∃ st3, Whole st3 ∧ Reads st2 (if (!s.extSemi && s.nextHash) = true then t!"; " else [])
        (if (!s.extSemi && s.nextHash) = true then [t!";"] else []) st3 := by
      cases (!s.extSemi && s.nextHash) with
      | true => exact ⟨none, whole_none, lit_shut (t := t!"; ") hw2 (by decide) (by decide)⟩
      | false => exact ⟨_, hw2, Reads.nil _⟩
    obtain ⟨st3, hw3, hsm⟩ := hsm
    have h3 := ((h2.append hnl).append hsm).append (lit_shut (t := t!" }") hw3 (by decide) (by decide))
    rw [show tokens t!")) { " = [t!")", t!")", t!"{"] by decide, show tokens t!" }" = [t!"}"] by decide,
      hb] at h3
    simp only [Bool.false_eq_true, if_false]
    have hsemi : ∀ a b : Bool, (if (a || (!a && b)) = true then [t!";"] else []) =
        (if a = true then [t!";"] else []) ++ if (!a && b) = true then [t!";"] else [] := by decide
    have e : Tree.yieldL [Tree.guarded t!"__dredd_enabled_mutation" id
        (withSemi u (s.extSemi || (!s.extSemi && s.nextHash)) t)] =
        [t!"if", t!"(", t!"!", t!"__dredd_enabled_mutation"] ++ [t!"("] ++ [natDec id] ++ [t!")", t!")", t!"{"] ++
          (t.yield ++ (if s.extSemi = true then [t!";"] else [])) ++ [] ++
          (if (!s.extSemi && s.nextHash) = true then [t!";"] else []) ++ [t!"}"] := by
      simp only [Tree.yieldL, Tree.guarded, Tree.call, Tree.num, Tree.name, commaSep, Tree.yield,
        Tree.block, Tree.yieldL_append, withSemi_yield, hsemi, List.append_nil, List.cons_append,
        List.nil_append, List.append_assoc]
    rw [e]
    simpa using h3

mutual
theorem Syn.reads {G : Grammar} {l : Lang} (hG : G.Has l.cpp) (o : Options) : (x : Syn) → (id : Nat) →
    (st : Option Lexing) → x.Parsed G l.cpp → x.Lexed st → PointsOk l o (Lay.mutsL x.lay) → Known st →
    Reads st (Lay.outL l o id x.lay) (Tree.yieldL (x.instr l o id)) (x.after st) ∧ Known (x.after st)
  | .tok t, id, st, _, hx, _, hk => by
    obtain ⟨⟨s, hs, hw⟩, ha⟩ := hx
    have hne : t ≠ [] := by rintro rfl; cases hs
    have htok : tokens t = [t] := by
      have : s.isToken = true := by
        cases s <;> first | rfl | cases hw
      simp [tokens, hs, this]
    have hlast : lastLex t = some s := by simp [lastLex, hs]
    simp only [Syn.lay, Lay.outL, Lay.out, List.append_nil, Syn.instr, Tree.yieldL, Tree.yield, Syn.after]
    refine ⟨?_, ?_⟩
    · have := Reads.raw (st := st) hne fun c cs e s hs => ha s c cs hs e
      rwa [htok, ← lastLex_endSt] at this
    · rw [hlast]
      intro v hv
      cases hv
      exact .inl (whole_closed hw)
  | .gap g, id, st, _, hx, _, hk => by
    simp only [Syn.lay, gapLay_out, Syn.instr, Tree.yieldL, Syn.after]
    refine ⟨gap_reads hx.1 hx.2, ?_⟩
    split
    · exact hk
    · exact known_none
  | .const old v, id, st, _, hx, _, hk => by
    simp only [Syn.lay, Lay.outL, Lay.out, List.append_nil, Syn.instr, Tree.yieldL, Tree.yield, Tree.num,
      Syn.after]
    exact ⟨num_reads v fun c cs e s hs => hx s c cs hs e, fun s h => by cases h; exact .inl rfl⟩
  | .node p ks, id, st, hp, hx, hm, hk => by
    have := Syn.readsL hG o ks id st hp.2.2 hx hm hk
    simpa only [Syn.lay, Syn.instr, Tree.yieldL, Tree.yield, List.append_nil, Syn.after] using this
  | .expr s x, id, st, hp, hx, hm, hk => by
    obtain ⟨hst, hlx, hend⟩ := hx
    simp only [Syn.lay, Lay.mutsL, Lay.muts, List.append_nil] at hm
    have hmx : PointsOk l o (Lay.mutsL x.lay) := fun m h => hm m (by simp [h])
    have hms := hm (.expr s) (by simp)
    obtain ⟨hr, hkx⟩ := Syn.reads hG o x id none hp.2.2 hlx hmx known_none
    obtain ⟨hv, hstd⟩ := Syn.instr_fine hG o x id hp.2.2 fun m h => (hmx m h).1
    have h0 : x.isExpr 0 := by
      rcases hp.1 with ⟨j, h1, h2, h3⟩ | ⟨h, -⟩
      · exact ⟨j, h1, by omega, h3⟩
      · exact h
    obtain ⟨t, ht, -⟩ := isExpr_fine h0 (by omega) hstd hv
    rw [ht] at hr
    simp only [Tree.yieldL, List.append_nil] at hr
    refine ⟨?_, known_none⟩
    have := s.reads l o (id + countAll l o.optimise (Lay.mutsL x.lay)) hms.1 hms.2 (st := st) ?_ hr
      (hkx.whole hend)
    · simp only [Syn.lay, Lay.outL, Lay.out, List.append_nil, Syn.instr, ht, List.map_cons, List.map_nil,
        Tree.yieldL, Syn.after]
      exact this
    · rcases hst with h | ⟨h1, h2⟩
      · exact .inl (hk.free h)
      · exact .inr ⟨h1, hk.whole h2⟩
  | .bin s a g1 g2 b, id, st, hp, hx, hm, hk => by
    obtain ⟨hea, heb, hpa, hpb⟩ := hp
    obtain ⟨hst, hla, henda, hap, hg1, hg2, hlb, hendb⟩ := hx
    simp only [Syn.lay, Lay.mutsL, Lay.muts, List.append_nil] at hm
    have hma : PointsOk l o (Lay.mutsL a.lay) := fun m h => hm m (by simp [h])
    have hmb : PointsOk l o (Lay.mutsL b.lay) := fun m h => hm m (by simp [h])
    have hms := hm (.bin s) (by simp)
    have hlv := levels_pos hms.1
    obtain ⟨hra, hka⟩ := Syn.reads hG o a id none hpa hla hma known_none
    obtain ⟨hrb, hkb⟩ := Syn.reads hG o b (id + countAll l o.optimise (Lay.mutsL a.lay)) none hpb hlb hmb
      known_none
    obtain ⟨hva, hsa⟩ := Syn.instr_fine hG o a id hpa fun m h => (hma m h).1
    obtain ⟨hvb, hsb⟩ := Syn.instr_fine hG o b (id + countAll l o.optimise (Lay.mutsL a.lay)) hpb
      fun m h => (hmb m h).1
    obtain ⟨x, hx, -⟩ := isExpr_fine hea hlv.2.2.1 hsa hva
    obtain ⟨y, hy, -⟩ := isExpr_fine heb hlv.2.2.2.1 hsb hvb
    rw [hx] at hra
    rw [hy] at hrb
    simp only [Tree.yieldL, List.append_nil] at hra hrb
    refine ⟨?_, known_none⟩
    simp only [Syn.lay, Lay.outL, Lay.out, List.append_nil, Syn.instr, hx, hy, List.flatMap_cons,
      List.flatMap_nil, List.map_cons, List.map_nil, Tree.yieldL, Syn.after]
    cases hc : (!l.cpp && s.op.isLogical) with
    | false =>
      simp only [Bool.false_eq_true, if_false]
      exact s.reads l o _ hms.1 hms.2 hc (hk.free hst) hra (hka.whole henda) hrb (hkb.whole hendb) hg1 hg2 hap
    | true =>
      simp only [if_true]
      exact s.logical_reads l o _ hc (hk.free hst) hra (hka.whole henda) hrb (hkb.whole hendb) hg1 hg2 hap
  | .pre s g x, id, st, hp, hx, hm, hk => by
    obtain ⟨hst, hg, hlx, hend⟩ := hx
    simp only [Syn.lay, Lay.mutsL, Lay.muts, Lay.mutsL_append, gapLay_muts, List.nil_append,
      List.append_nil] at hm
    have hmx : PointsOk l o (Lay.mutsL x.lay) := fun m h => hm m (by simp [h])
    have hms := hm (.un s) (by simp)
    obtain ⟨hr, hkx⟩ := Syn.reads hG o x id none hp.2 hlx hmx known_none
    obtain ⟨hv, hstd⟩ := Syn.instr_fine hG o x id hp.2 fun m h => (hmx m h).1
    obtain ⟨t, ht, -⟩ := isExpr_fine hp.1 (by omega) hstd hv
    rw [ht] at hr
    simp only [Tree.yieldL, List.append_nil] at hr
    refine ⟨?_, known_none⟩
    have := s.reads l o (id + countAll l o.optimise (Lay.mutsL x.lay)) hms.1 hms.2 (hk.free hst)
      ((gap_none hg).append hr) (hkx.whole hend)
    simpa only [Syn.lay, Lay.outL, Lay.out, List.append_nil, Syn.instr, ht, List.map_cons, List.map_nil,
        Tree.yieldL, Syn.after, Lay.muts, Lay.mutsL, Lay.mutsL_append, Lay.outL_append, gapLay_muts, gapLay_out,
        List.nil_append, show countAll l o.optimise [] = 0 from rfl, Nat.add_zero] using this
  | .post s x g, id, st, hp, hx, hm, hk => by
    obtain ⟨hst, hlx, hend, hap, hg⟩ := hx
    simp only [Syn.lay, Lay.mutsL, Lay.muts, Lay.mutsL_append, gapLay_muts, List.append_nil] at hm
    have hmx : PointsOk l o (Lay.mutsL x.lay) := fun m h => hm m (by simp [h])
    have hms := hm (.un s) (by simp)
    obtain ⟨hr, hkx⟩ := Syn.reads hG o x id none hp.2 hlx hmx known_none
    obtain ⟨hv, hstd⟩ := Syn.instr_fine hG o x id hp.2 fun m h => (hmx m h).1
    obtain ⟨t, ht, -⟩ := isExpr_fine hp.1 (by omega) hstd hv
    rw [ht] at hr
    simp only [Tree.yieldL, List.append_nil] at hr
    refine ⟨?_, known_none⟩
    have hr' := hr.append (gap_reads hg hap)
    rw [List.append_nil] at hr'
    have := s.reads l o (id + countAll l o.optimise (Lay.mutsL x.lay)) hms.1 hms.2 (hk.free hst) hr' (by
      split
      · exact hkx.whole hend
      · exact whole_none)
    simpa only [Syn.lay, Lay.outL, Lay.out, List.append_nil, Syn.instr, ht, List.map_cons, List.map_nil,
        Tree.yieldL, Syn.after, Lay.muts, Lay.mutsL, Lay.mutsL_append, Lay.outL_append, gapLay_muts, gapLay_out] using this
  | .stmt s x ext, id, st, hp, hx, hm, hk => by
    obtain ⟨hse, ⟨p, hpx, hcase⟩, hpp⟩ := hp
    obtain ⟨hst, hlx, hend, hap, hext⟩ := hx
    simp only [Syn.lay, Lay.mutsL, Lay.muts, List.append_nil] at hm
    have hmx : PointsOk l o (Lay.mutsL x.lay) := fun m h => hm m (by simp [h])
    have hms := hm (.stmt s) (by simp)
    obtain ⟨hr, hkx⟩ := Syn.reads hG o x id none hpp hlx hmx known_none
    obtain ⟨hv, hstd⟩ := Syn.instr_fine hG o x id hpp fun m h => (hmx m h).1
    have hstd := hstd p hpx
    have hone : (∃ t, x.instr l o id = [t]) ∧ (tokens ext = [] ∨ tokens ext = [t!";"]) := by
      rcases hcase with ⟨hu, he⟩ | ⟨hi, hni, he⟩
      · have hni : p ≠ .item := by rintro rfl; cases hu
        obtain ⟨t, ht, -⟩ := hstd.is hni hu (by intro k hk; cases hk)
        exact ⟨⟨t, ht⟩, .inr he⟩
      · obtain ⟨t, ht, -⟩ := hstd.is hni hi (by intro k hk; cases hk)
        exact ⟨⟨t, ht⟩, he⟩
    obtain ⟨⟨t, ht⟩, htok⟩ := hone
    rw [ht] at hr
    simp only [Tree.yieldL, List.append_nil] at hr
    have := s.reads o (id + countAll l o.optimise (Lay.mutsL x.lay)) hms.2
      (u := (x.phrase.map (·.fits .unfinished)).getD false) (hk.free hst) hr hkx
      hend hap hse htok hext
    refine ⟨?_, (ext_reads hkx hend hap s hext).2.1⟩
    simpa only [Syn.lay, Lay.outL, Lay.out, List.append_nil, Syn.instr, ht, List.flatMap_cons,
        List.flatMap_nil, Syn.after, Lay.muts, Lay.mutsL] using this

theorem Syn.readsL {G : Grammar} {l : Lang} (hG : G.Has l.cpp) (o : Options) : (xs : List Syn) → (id : Nat) →
    (st : Option Lexing) → Syn.ParsedL G l.cpp xs → Syn.LexedL st xs →
    PointsOk l o (Lay.mutsL (Syn.layL xs)) → Known st →
    Reads st (Lay.outL l o id (Syn.layL xs)) (Tree.yieldL (Syn.instrL l o id xs)) (Syn.afterL st xs) ∧
      Known (Syn.afterL st xs)
  | [], id, st, _, _, _, hk => ⟨Reads.nil st, hk⟩
  | x :: xs, id, st, hp, hx, hm, hk => by
    simp only [Syn.layL, Lay.mutsL_append] at hm
    obtain ⟨h1, hk1⟩ := Syn.reads hG o x id st hp.1 hx.1 (fun m h => hm m (by simp [h])) hk
    obtain ⟨h2, hk2⟩ := Syn.readsL hG o xs (id + countAll l o.optimise (Lay.mutsL x.lay)) _ hp.2 hx.2
      (fun m h => hm m (by simp [h])) hk1
    refine ⟨?_, hk2⟩
    simp only [Syn.layL, Lay.outL_append, Syn.instrL, Tree.yieldL_append, Syn.afterL]
    exact h1.append h2
end

end Dredd
