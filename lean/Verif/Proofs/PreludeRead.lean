/-
The preludes read back from their text (C64).
-/
import Verif.Spec.PreludeRead
import Verif.Proofs.PreludeLines
import Verif.Proofs.CReadSem

namespace Dredd.MiniC

/-! ### Programs without layout -/

/-- An expression without parentheses. -/
def Expr.bare : Expr → Expr
  | .bin op a b => .bin op a.bare b.bare
  | .par a => a.bare
  | .not a => .not a.bare
  | .idx x a => .idx x a.bare
  | .cond c a b => .cond c.bare a.bare b.bare
  | .call f a => .call f a.bare
  | .substr x n a => .substr x n a.bare
  | .erase x n a => .erase x n a.bare
  | .strcpy x a => .strcpy x a.bare
  | .exchangeCpp x a => .exchangeCpp x a.bare
  | .exchangeC x a => .exchangeC x a.bare
  | .openCpp x a => .openCpp x a.bare
  | .fopen a => .fopen a.bare
  | .putCpp x a => .putCpp x a.bare
  | .putC x a => .putC x a.bare
  | e => e

theorem Expr.eval_bare (e : Env) (a : Expr) : eval e a.bare = eval e a := by
  induction a with
  | par a ih => funext s; rw [Expr.bare, ih, eval]
  | _ => funext s; simp only [Expr.bare, eval, *]

/-- A statement without layout, followed by `k`. -/
def Stmt.onto : Stmt → Stmt → Stmt
  | .skip, k => k
  | .seq a b, k => a.onto (b.onto k)
  | .decl ty x e, k => .seq (.decl ty x e.bare) k
  | .ctor ty x e, k => .seq (.ctor ty x e.bare) k
  | .declare ty x, k => .seq (.declare ty x) k
  | .set x e, k => .seq (.set x e.bare) k
  | .orSet x i e, k => .seq (.orSet x i.bare e.bare) k
  | .expr e, k => .seq (.expr e.bare) k
  | .ite c s, k => .seq (.ite c.bare (s.onto .skip)) k
  | .ifRet c, k => .seq (.ifRet c.bare) k
  | .while_ _ c s, k => .seq (.while_ true c.bare (s.onto .skip)) k
  | .for_ x b s, k => .seq (.for_ x b.bare (s.onto .skip)) k
  | .brk, k => .seq .brk k
  | .ret e, k => .seq (.ret e.bare) k

theorem andThen_andThen (r : SOut) (f g : Store → SOut) :
    (r.andThen f).andThen g = r.andThen fun s => (f s).andThen g := by
  cases r <;> rfl

theorem andThen_next_id (r : SOut) : r.andThen .next = r := by cases r <;> rfl

theorem Stmt.exec_onto (e : Env) (fuel : Nat) (a : Stmt) : ∀ (k : Stmt) (s : Store),
    exec e fuel (a.onto k) s = (exec e fuel a s).andThen (exec e fuel k) := by
  have eta : ∀ k, (fun s => exec e fuel k s) = exec e fuel k := fun _ => rfl
  induction a with
  | skip => intro k s; simp only [Stmt.onto, exec, SOut.andThen]
  | seq a b iha ihb =>
    intro k s
    rw [Stmt.onto, iha, exec, andThen_andThen]
    congr 1
    funext s
    rw [ihb]
  | ite c b ih =>
    intro k s
    have : exec e fuel (b.onto .skip) = exec e fuel b := by
      funext s; rw [ih]; exact andThen_next_id _
    simp only [Stmt.onto, exec, Expr.eval_bare, this]
  | while_ sp c b ih =>
    intro k s
    have : exec e fuel (b.onto .skip) = exec e fuel b := by
      funext s; rw [ih]; exact andThen_next_id _
    simp only [Stmt.onto, exec, Expr.eval_bare, this]
  | for_ x c b ih =>
    intro k s
    have : exec e fuel (b.onto .skip) = exec e fuel b := by
      funext s; rw [ih]; exact andThen_next_id _
    have hc : eval e (.bin .lt (.var x) c.bare) = eval e (.bin .lt (.var x) c) := by
      funext s; simp only [eval, Expr.eval_bare]
    simp only [Stmt.onto, exec, hc, this]
  | _ => intro k s; simp only [Stmt.onto, exec, Expr.eval_bare]

/-- A static variable without layout. -/
def Static.bare : Static → Static
  | .scalar _ ty x e => .scalar 0 ty x e.bare
  | .array _ ty x n f => .array 0 ty x n f

/-- A function without layout. -/
def Fun.bare (f : Fun) : Fun where
  outer := f.outer.map Static.bare
  head := f.head
  params := f.params
  inner := f.inner.map Static.bare
  body := f.body.onto .skip

theorem Static.init_bare (s : Store) (x : Static) : x.bare.init s = x.init s := by
  cases x with
  | scalar k ty x e => simp only [Static.bare, Static.init, Expr.eval_bare]
  | array k ty x n f => cases f <;> rfl

theorem Fun.start_bare (f : Fun) : f.bare.start = f.start := by
  simp only [Fun.start, Fun.bare, ← List.map_append, List.foldl_map, Static.init_bare]

theorem Fun.call_bare (f : Fun) (e : Env) (fuel : Nat) (args : List Nat) (s : Store) :
    f.bare.call e fuel args s = f.call e fuel args s := by
  simp only [Fun.call, Fun.bare, Stmt.exec_onto]
  exact andThen_next_id _

end Dredd.MiniC

namespace Dredd.PreludeRead

open MiniC

/-! ### Lines -/

/-- A character that neither ends a line nor begins a directive. -/
def inLine (c : Char) : Bool := c != '\n' && c != '#'

/-- A line that is not a directive, and its tokens. -/
structure ReadsAs (l : Text) (ts : List Tok) : Prop where
  line : ∃ w, l = w ++ ['\n'] ∧ w.all inLine = true
  white : endSt l = some .white
  toks : toks l = some ts

theorem toks_ok (a b : Text) (c : Char) (h : Ok (endSt a) c) {ts us : List Tok}
    (ha : toks a = some ts) (hb : toks (c :: b) = some us) : toks (a ++ c :: b) = some (ts ++ us) := by
  simp only [toks, lexemes_append a b c h, List.filter_append, List.mapM_append] at *
  rw [ha, hb]
  rfl

theorem toks_natDec (n : Nat) : toks (natDec n) = some [.num n] := by
  obtain ⟨h1, h2, -⟩ := natDec_spec n
  have hd := decimal_natDec n
  cases hn : natDec n with
  | nil => exact absurd hn h1
  | cons c cs =>
    rw [hn] at h2 hd
    simp [toks, lexemes, digit_start (h2 c List.mem_cons_self),
      lexFrom_digits _ cs fun d hd => h2 d (List.mem_cons_of_mem _ hd), Lexing.isToken, tok?, hd]

/-- A fixed line. -/
def litOk (l : Text) (ts : List Tok) : Bool :=
  decide (l.getLast? = some '\n' ∧ l.dropLast.all inLine = true ∧ endSt l = some .white ∧
    toks l = some ts)

theorem ReadsAs.lit {l : Text} {ts : List Tok} (h : litOk l ts = true) : ReadsAs l ts := by
  simp only [litOk, decide_eq_true_eq] at h
  refine ⟨⟨l.dropLast, ?_, h.2.1⟩, h.2.2.1, h.2.2.2⟩
  obtain ⟨xs, rfl⟩ := List.getLast?_eq_some_iff.mp h.1
  simp

/-- What stands before and behind the number in a line with a number. -/
def numOk (a : Text) (ts : List Tok) (c : Text) (us : List Tok) : Bool :=
  decide (a.all inLine = true ∧ endSt a ∈ [some .white, some (.punct t!"["), some (.punct t!"(")] ∧
    toks a = some ts ∧ c.head? ∈ [some ']', some ';', some ')', some ' '] ∧ litOk c us = true)

theorem ReadsAs.num {a c : Text} (ts us : List Tok) {n : Nat} {vs : List Tok}
    (h : numOk a ts c us = true) (hv : vs = ts ++ .num n :: us) : ReadsAs (a ++ natDec n ++ c) vs := by
  subst hv
  simp only [numOk, decide_eq_true_eq] at h
  obtain ⟨ha, he, hta, hc, hl⟩ := h
  obtain ⟨⟨w, hw, hwl⟩, h2, h3⟩ := ReadsAs.lit hl
  obtain ⟨c0, cs, rfl⟩ : ∃ c0 cs, c = c0 :: cs := by
    cases c with
    | nil => simp at hc
    | cons c0 cs => exact ⟨_, _, rfl⟩
  have hc0 : Ok (endSt (natDec n)) c0 := by
    intro x hx
    rw [natDec_endSt] at hx
    cases hx
    simp only [List.head?_cons, List.mem_cons, Option.some.injEq, List.not_mem_nil, or_false] at hc
    rcases hc with rfl | rfl | rfl | rfl <;> rfl
  obtain ⟨h1, hd, -⟩ := natDec_spec n
  obtain ⟨d, ds, hn⟩ : ∃ d ds, natDec n = d :: ds := by
    cases hn : natDec n with
    | nil => exact absurd hn h1
    | cons d ds => exact ⟨_, _, rfl⟩
  have hdig : IsDigit d := hd d (by simp [hn])
  have hda : Ok (endSt a) d := by
    intro x hx
    rw [hx] at he
    have := digit_cases hdig
    simp only [List.mem_cons, Option.some.injEq, List.not_mem_nil, or_false] at he this
    rcases he with rfl | rfl | rfl
    · rfl
    all_goals rcases this with rfl | rfl | rfl | rfl | rfl | rfl | rfl | rfl | rfl | rfl <;> decide
  refine ⟨⟨a ++ natDec n ++ w, by rw [hw]; simp, ?_⟩, ?_, ?_⟩
  · simp only [List.all_append, ha, hwl, Bool.and_true, Bool.true_and, List.all_eq_true]
    intro x hx
    have := digit_cases (hd x hx)
    simp only [List.mem_cons, List.not_mem_nil, or_false] at this
    rcases this with rfl | rfl | rfl | rfl | rfl | rfl | rfl | rfl | rfl | rfl <;> decide
  · have e := endSt_append (natDec n) cs c0 hc0
    rw [List.append_assoc, hn, List.cons_append, endSt_append a _ d hda, ← List.cons_append, ← hn, e]
    exact h2
  · have e := toks_ok (natDec n) cs c0 hc0 (toks_natDec n) h3
    rw [List.append_assoc]
    rw [hn, List.cons_append] at e ⊢
    exact toks_ok a _ d hda hta e

/-- Lines that are not directives, and their tokens. -/
inductive ReadAll : List Text → List (List Tok) → Prop
  | nil : ReadAll [] []
  | cons {l ts ls us} (h : ReadsAs l ts) (hs : ReadAll ls us) : ReadAll (l :: ls) (ts :: us)

theorem linesOf_line (w b : Text) (h : w.all inLine = true) :
    linesOf (w ++ '\n' :: b) = (w ++ ['\n']) :: linesOf b := by
  induction w with
  | nil => simp [linesOf]
  | cons c cs ih =>
    simp only [List.all_cons, Bool.and_eq_true] at h
    have hc : c ≠ '\n' := by
      have := h.1
      simp only [inLine, Bool.and_eq_true, bne_iff_ne] at this
      exact this.1
    simp only [List.cons_append, linesOf, hc, if_false, ih h.2]

theorem ReadAll.lines {ls : List Text} {ts : List (List Tok)} (h : ReadAll ls ts) :
    linesOf ls.flatten = ls := by
  induction h with
  | nil => rfl
  | cons h _ ih =>
    obtain ⟨w, rfl, hw⟩ := h.line
    simp only [List.flatten_cons, List.append_assoc, List.singleton_append, linesOf_line w _ hw, ih]

theorem ReadAll.toks {ls : List Text} {ts : List (List Tok)} (h : ReadAll ls ts) :
    toks ls.flatten = some ts.flatten := by
  induction h with
  | nil => rfl
  | @cons l ts ls us h _ ih =>
    rw [List.flatten_cons, List.flatten_cons]
    cases hls : ls.flatten with
    | nil =>
      rw [hls] at ih
      have : us.flatten = [] := (Option.some.inj ih).symm
      rw [this]
      simpa using h.toks
    | cons c b =>
      rw [hls] at ih
      exact toks_ok _ _ _ (sealed_white h.white c) h.toks ih

/-! ### Directives -/

theorem tokens_mem {t x : Text} (h : x ∈ tokens t) : ∀ c ∈ x, c ∈ t := by
  simp only [tokens, List.mem_map, List.mem_filter] at h
  obtain ⟨y, ⟨hy, -⟩, rfl⟩ := h
  intro c hc
  rw [← lexemes_text t]
  simp only [lexText, List.mem_flatMap]
  exact ⟨y, hy, hc⟩

theorem line_kept (d : Text → Bool) (p : PP) (l : Text) (ha : p.active = true) (h : '#' ∉ l) :
    p.line d l = some { p with kept := p.kept ++ l } := by
  unfold PP.line
  split
  · rename_i x k ts heq
    have : x ≠ t!"#" := by
      rintro rfl
      exact h (tokens_mem (t := l) (by rw [heq]; exact List.mem_cons_self) '#' (by decide))
    simp [this, ha]
  · simp [ha]

theorem lines_append (d : Text → Bool) (p : PP) (ls ms : List Text) :
    PP.lines d p (ls ++ ms) = (ls.foldlM (PP.line d) p).bind fun p => PP.lines d p ms := by
  induction ls generalizing p with
  | nil => rfl
  | cons l ls ih =>
    simp only [List.cons_append, PP.lines, List.foldlM_cons]
    cases p.line d l with
    | none => rfl
    | some q => exact ih q

theorem ReadsAs.no_hash {l : Text} {ts : List Tok} (h : ReadsAs l ts) : '#' ∉ l := by
  obtain ⟨w, rfl, hw⟩ := h.line
  intro hm
  simp only [List.mem_append, List.mem_singleton] at hm
  rcases hm with hm | hm
  · have := List.all_eq_true.mp hw _ hm
    revert this
    decide
  · revert hm
    decide

theorem ReadAll.kept {ls : List Text} {ts : List (List Tok)} (h : ReadAll ls ts) (d : Text → Bool) (p : PP)
    (hp : p.open_ = []) : PP.lines d p ls = some { p with kept := p.kept ++ ls.flatten } := by
  induction h generalizing p with
  | nil => obtain ⟨hs, ms, op, k⟩ := p; simp_all [PP.lines]
  | cons h _ ih =>
    rw [PP.lines, line_kept d p _ (by simp [PP.active, hp]) h.no_hash]
    simp only [Option.bind_some]
    rw [ih _ (by exact hp)]
    simp

/-- The text in front is handled on its own. -/
theorem linesOf_append (a b : Text) (h : a = [] ∨ a.getLast? = some '\n') :
    linesOf (a ++ b) = linesOf a ++ linesOf b := by
  induction a with
  | nil => rfl
  | cons c cs ih =>
    have hl : (c :: cs).getLast? = some '\n' := by
      rcases h with h | h
      · cases h
      · exact h
    cases cs with
    | nil =>
      simp only [List.getLast?_singleton, Option.some.injEq] at hl
      subst hl
      simp [linesOf]
    | cons c' cs =>
      have e := ih (.inr (by simpa [List.getLast?_cons_cons] using hl))
      have hne : linesOf (c' :: cs) ≠ [] := by
        rw [linesOf]
        split
        · simp
        · split <;> simp
      generalize c' :: cs = r at e hne
      rw [List.cons_append, linesOf, e, linesOf]
      split
      · rfl
      · cases hls : linesOf r with
        | nil => exact absurd hls hne
        | cons l ls => rfl

theorem preprocess_append {a : Text} (h : a.getLast? = some '\n') {ls : List Text}
    {ts : List (List Tok)} (hr : ReadAll ls ts) (d : Text → Bool) (p : PP) (hp : p.open_ = [])
    (ha : (linesOf a).foldlM (PP.line d) ⟨[], [], [], []⟩ = some p) :
    preprocess d (a ++ ls.flatten) = some { p with kept := p.kept ++ ls.flatten } := by
  rw [preprocess, linesOf_append a _ (.inr h), hr.lines, lines_append, ha]
  exact hr.kept d p hp

end Dredd.PreludeRead
