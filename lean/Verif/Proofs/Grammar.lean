/-
Instrumented programs are programs (C62): the trees are made by the rules of the grammar.
-/
import Verif.Spec.Grammar
import Verif.Proofs.CReadFns
import Verif.Proofs.Source
import Verif.Props.C61

namespace Dredd

/-! ### Trees -/

theorem Tree.yieldL_append (a b : List Tree) : Tree.yieldL (a ++ b) = Tree.yieldL a ++ Tree.yieldL b := by
  induction a with
  | nil => rfl
  | cons k ks ih => simp [Tree.yieldL, ih]

theorem Tree.validL_append (G : Grammar) (a b : List Tree) :
    Tree.ValidL G (a ++ b) ↔ Tree.ValidL G a ∧ Tree.ValidL G b := by
  induction a with
  | nil => simp [Tree.ValidL]
  | cons k ks ih => simp [Tree.ValidL, ih, and_assoc]

theorem Tree.validL_mem {G : Grammar} {a : List Tree} : Tree.ValidL G a ↔ ∀ t ∈ a, t.Valid G := by
  induction a with
  | nil => simp [Tree.ValidL]
  | cons k ks ih => simp [Tree.ValidL, ih]

theorem Tree.match_append {a b : List Tree} {x y : List Sym} (ha : Tree.Match a x) (hb : Tree.Match b y) :
    Tree.Match (a ++ b) (x ++ y) := by
  induction a generalizing x with
  | nil => cases x with
    | nil => exact hb
    | cons => exact ha.elim
  | cons k ks ih =>
    cases k <;> rcases x with _ | ⟨s | s, ss⟩ <;> simp only [Tree.Match] at ha
    · exact ⟨ha.1, ih ha.2⟩
    · exact ⟨ha.1, ih ha.2⟩

/-- The tree is a phrase that may stand where `w` is asked for. -/
def Tree.Is (t : Tree) (w : Phrase) : Prop := ∃ q ks, t = .node q ks ∧ q.fits w = true

theorem Tree.match_is {ts : List Tree} {w : Phrase} (h : ∀ t ∈ ts, t.Is w) :
    Tree.Match ts (List.replicate ts.length (.nt w)) := by
  induction ts with
  | nil => trivial
  | cons t ts ih =>
    obtain ⟨q, ks, rfl, hq⟩ := h t List.mem_cons_self
    exact ⟨hq, ih fun t ht => h t (List.mem_cons_of_mem _ ht)⟩

theorem Tree.match_comma {ts : List Tree} {w : Phrase} (h : ∀ t ∈ ts, t.Is w) :
    Tree.Match (commaSep (.tok t!",") ts) (commaSep (.tok t!",") (List.replicate ts.length (.nt w))) := by
  induction ts with
  | nil => trivial
  | cons t ts ih =>
    obtain ⟨q, ks, rfl, hq⟩ := h t List.mem_cons_self
    have ih := ih fun t ht => h t (List.mem_cons_of_mem _ ht)
    cases ts with
    | nil => exact ⟨hq, trivial⟩
    | cons u us => exact ⟨hq, rfl, ih⟩

theorem commaSep_mem {α : Type} {c x : α} {xs : List α} (h : x ∈ commaSep c xs) : x = c ∨ x ∈ xs := by
  induction xs with
  | nil => simp [commaSep] at h
  | cons y ys ih =>
    cases ys with
    | nil => exact .inr h
    | cons z zs =>
      simp only [commaSep, List.mem_cons] at h
      rcases h with h | h | h
      · simp [h]
      · simp [h]
      · rcases ih h with h | h
        · exact .inl h
        · exact .inr (List.mem_cons_of_mem _ h)

theorem Tree.is_mono {t : Tree} {j k : Nat} (h : t.Is (.expr j)) (hk : k ≤ j) : t.Is (.expr k) := by
  obtain ⟨q, ks, rfl, hq⟩ := h
  refine ⟨q, ks, rfl, ?_⟩
  cases q <;> simp_all [Phrase.fits]
  omega

/-- A valid tree of a kind. -/
def Tree.Fine (G : Grammar) (t : Tree) (w : Phrase) : Prop := t.Valid G ∧ t.Is w

theorem Tree.Fine.mono {G : Grammar} {t : Tree} {j k : Nat} (h : t.Fine G (.expr j)) (hk : k ≤ j) :
    t.Fine G (.expr k) := ⟨h.1, is_mono h.2 hk⟩

section
variable {G : Grammar} {cpp : Bool} (hG : G.Has cpp)
include hG

theorem Tree.num_fine (n : Nat) : (Tree.num n).Fine G (.expr 17) :=
  ⟨⟨⟨_, hG.num n, rfl, trivial⟩, trivial, trivial⟩, _, _, rfl, rfl⟩

theorem Tree.name_fine {x : Text} (h1 : t!"__dredd_" <+: x) (h2 : x.all wordChar = true) :
    (Tree.name x).Fine G (.expr 17) :=
  ⟨⟨⟨_, hG.name x h1 h2, rfl, trivial⟩, trivial, trivial⟩, _, _, rfl, rfl⟩

theorem Tree.paren_fine {x : Tree} (h : x.Fine G (.expr 0)) : (Tree.paren x).Fine G (.expr 17) := by
  obtain ⟨hv, q, ks, rfl, hq⟩ := h
  exact ⟨⟨⟨_, hG.paren, rfl, hq, rfl, trivial⟩, trivial, hv, trivial, trivial⟩, _, _, rfl, rfl⟩

theorem Tree.addr_fine {x : Tree} (h : x.Fine G (.expr 0)) : (Tree.addr x).Fine G (.expr 15) := by
  obtain ⟨hv, -⟩ := Tree.paren_fine hG h
  exact ⟨⟨⟨_, hG.addr, rfl, rfl, trivial⟩, trivial, hv, trivial⟩, _, _, rfl, rfl⟩

theorem Tree.call_fine {f : Text} {args : List Tree} (h1 : t!"__dredd_" <+: f)
    (h2 : f.all wordChar = true) (ha : ∀ t ∈ args, t.Fine G (.expr 1)) :
    (Tree.call f args).Fine G (.expr 16) := by
  have hn := Tree.name_fine hG h1 h2
  refine ⟨⟨⟨_, hG.call args.length, ?_⟩, ?_⟩, _, _, rfl, rfl⟩
  · refine Tree.match_append (Tree.match_append ⟨rfl, rfl, trivial⟩ ?_) ⟨rfl, trivial⟩
    exact Tree.match_comma fun t ht => (ha t ht).2
  · rw [Tree.validL_mem]
    intro t ht
    simp only [List.mem_append, List.mem_cons, List.not_mem_nil, or_false] at ht
    rcases ht with ((rfl | rfl) | ht) | rfl
    · exact hn.1
    · trivial
    · rcases commaSep_mem ht with rfl | ht
      · trivial
      · exact (ha t ht).1
    · trivial

omit hG in
theorem Tree.match_toks (G : Grammar) (ts : List Text) : Tree.Match (ts.map .tok) (ts.map .tok) ∧
    Tree.ValidL G (ts.map .tok) := by
  induction ts with
  | nil => exact ⟨trivial, trivial⟩
  | cons t ts ih => exact ⟨⟨rfl, ih.1⟩, trivial, ih.2⟩

theorem Tree.type_fine {ty : Text} (h : (readDTy (tokens ty)).isSome) : (Tree.type ty).Fine G .type := by
  have := Tree.match_toks G (tokens ty)
  exact ⟨⟨⟨_, hG.type _ h, this.1⟩, this.2⟩, _, _, rfl, rfl⟩

theorem Tree.cast_fine {ty : Text} {x : Tree} (hc : cpp = true) (h : (readDTy (tokens ty)).isSome)
    (hx : x.Fine G (.expr 0)) : (Tree.cast ty x).Fine G (.expr 16) := by
  have ht := Tree.type_fine hG h
  obtain ⟨hv, q, ks, rfl, hq⟩ := hx
  exact ⟨⟨⟨_, hG.cast hc, rfl, rfl, rfl, rfl, rfl, hq, rfl, trivial⟩, trivial, trivial, ht.1, trivial,
    trivial, hv, trivial, trivial⟩, _, _, rfl, rfl⟩

theorem Tree.block_fine {xs : List Tree} (h : ∀ t ∈ xs, t.Fine G .item) :
    (Tree.block xs).Fine G .closed := by
  refine ⟨⟨⟨_, hG.block xs.length, ?_⟩, ?_⟩, _, _, rfl, rfl⟩
  · refine Tree.match_append (Tree.match_append ⟨rfl, trivial⟩ ?_) ⟨rfl, trivial⟩
    exact Tree.match_is fun t ht => (h t ht).2
  · rw [Tree.validL_append, Tree.validL_append]
    refine ⟨⟨⟨trivial, trivial⟩, ?_⟩, trivial, trivial⟩
    rw [Tree.validL_mem]
    exact fun t ht => (h t ht).1

theorem Tree.semi_fine {x : Tree} (h : x.Fine G .unfinished) : (Tree.semi x).Fine G .closed := by
  obtain ⟨hv, q, ks, rfl, hq⟩ := h
  exact ⟨⟨⟨_, hG.semi, hq, rfl, trivial⟩, hv, trivial, trivial⟩, _, _, rfl, rfl⟩

theorem Tree.lambda_fine {ty : Text} {x : Tree} (hc : cpp = true) (h : (readDTy (tokens ty)).isSome)
    (hx : x.Fine G (.expr 0)) : (Tree.lambda ty x).Fine G (.expr 17) := by
  have ht := Tree.type_fine hG h
  obtain ⟨hv, q, ks, rfl, hq⟩ := hx
  have hr : (Tree.node .unfinished [.tok t!"return", .node q ks]).Fine G .unfinished :=
    ⟨⟨⟨_, hG.ret, rfl, hq, trivial⟩, trivial, hv, trivial⟩, _, _, rfl, rfl⟩
  have hs := Tree.semi_fine hG hr
  have hb : (Tree.block [.semi (.node .unfinished [.tok t!"return", .node q ks])]).Fine G .closed := by
    refine Tree.block_fine hG ?_
    intro t ht
    rw [List.mem_singleton.1 ht]
    exact ⟨hs.1, _, _, rfl, rfl⟩
  exact ⟨⟨⟨_, hG.lambda hc, rfl, rfl, rfl, rfl, rfl, rfl, rfl, rfl, trivial⟩, trivial, trivial, trivial,
    trivial, trivial, trivial, ht.1, hb.1, trivial⟩, _, _, rfl, rfl⟩

theorem Tree.guarded_fine {f : Text} {id : Nat} {xs : List Tree} (h1 : t!"__dredd_" <+: f)
    (h2 : f.all wordChar = true) (h : ∀ t ∈ xs, t.Fine G .item) :
    (Tree.guarded f id xs).Fine G .stmt := by
  have hb := Tree.block_fine hG h
  have hc : (Tree.call f [.num id]).Fine G (.expr 16) := by
    refine Tree.call_fine hG h1 h2 ?_
    intro t ht
    rw [List.mem_singleton.1 ht]
    exact (Tree.num_fine hG id).mono (by omega)
  exact ⟨⟨⟨_, hG.ifs, rfl, rfl, rfl, rfl, rfl, trivial⟩, trivial, trivial,
    ⟨⟨_, hG.lnot, rfl, rfl, trivial⟩, trivial, hc.1, trivial⟩, trivial, hb.1, trivial⟩, _, _, rfl, rfl⟩

/-- What is needed of a parameter. -/
def Param.Passable (cpp : Bool) (p : Param) : Prop :=
  p.mode = .thunk → cpp = true ∧ (readDTy (tokens p.ty)).isSome

theorem Param.pass_fine {p : Param} {c : Bool} {x : Tree} (hp : p.Passable cpp)
    (hx : x.Fine G (.expr 0)) (h1 : p.mode ≠ .thunk → x.Fine G (.expr 1)) :
    (p.pass c x).Fine G (.expr 1) := by
  unfold Param.pass
  cases hm : p.mode with
  | thunk =>
    obtain ⟨hc, ht⟩ := hp hm
    refine (Tree.lambda_fine hG hc ht ?_).mono (by omega)
    cases c
    · exact (Tree.cast_fine hG hc ht hx).mono (by omega)
    · exact hx
  | deref => exact (Tree.addr_fine hG hx).mono (by omega)
  | value => exact h1 (by simp [hm])

end

/-! ### Points -/

theorem wordText_all {t : Text} (h : wordText t = true) : t.all wordChar = true := by
  cases t with
  | nil => cases h
  | cons c cs =>
    simp only [wordText, Bool.and_eq_true] at h
    simp [h.1.1, h.2]

theorem BinSite.name_dredd (s : BinSite) (l : Lang) (opt : Bool) (z : Text) :
    t!"__dredd_" <+: s.fnName l opt ++ z := by
  unfold BinSite.fnName
  simp only [List.append_assoc]
  exact ⟨_, rfl⟩

theorem UnSite.name_dredd (s : UnSite) (l : Lang) (opt : Bool) : t!"__dredd_" <+: s.fnName l opt := by
  unfold UnSite.fnName
  simp only [List.append_assoc]
  exact ⟨_, rfl⟩

theorem ExprSite.name_dredd (s : ExprSite) (l : Lang) (opt : Bool) : t!"__dredd_" <+: s.fnName l opt := by
  unfold ExprSite.fnName
  simp only [List.append_assoc]
  exact ⟨_, rfl⟩

theorem dty_some (l : Lang) (d : DTy) : (readDTy (tokens (d.text l))).isSome := by
  rw [dty_read]
  rfl

theorem name_some (l : Lang) (t : BTy) : (readDTy (tokens (t.name l))).isSome := by
  rw [name_text]
  exact dty_some l _

theorem cpp_some (l : Lang) (e : ExprInfo) :
    (readDTy (tokens (cppTypeModifiers e (e.ty.name l)))).isSome := by
  have h (v c : Bool) (f : Form) := dty_some l ⟨e.ty, v, c, f⟩
  have h1 := h false false .value
  have h2 := h false true .ref
  have h3 := h true false .ref
  have h4 := h false false .ref
  simp only [DTy.text, if_true, Bool.false_eq_true, if_false, List.nil_append, List.append_nil] at h1 h2 h3 h4
  unfold cppTypeModifiers
  split
  · split
    · first | exact h2 | exact h3 | exact h4
    · split
      · first | exact h2 | exact h3 | exact h4
      · first | exact h2 | exact h3 | exact h4
  · exact h1

theorem BinSite.passable (s : BinSite) (l : Lang) (o : Options) (id : Nat) :
    ∀ p ∈ (s.genFn l o id).params, p.Passable l.cpp := by
  intro p hp
  simp only [BinSite.genFn, List.mem_cons, List.not_mem_nil, or_false] at hp
  rcases hp with rfl | rfl
  · intro hm
    have hc : l.cpp = true := by
      unfold BinSite.mode1 at hm
      cases h : l.cpp <;> simp [h] at hm ⊢
      split at hm <;> cases hm
    refine ⟨hc, ?_⟩
    have h3 := dty_some l ⟨s.lhs.ty, true, false, .ref⟩
    have h4 := dty_some l ⟨s.lhs.ty, false, false, .ref⟩
    simp only [DTy.text, if_true, Bool.false_eq_true, if_false, List.nil_append] at h3 h4
    simp only [BinSite.lhsTyText, hc, if_true]
    split
    · split
      · exact h3
      · exact h4
    · exact name_some l _
  · intro hm
    refine ⟨?_, name_some l _⟩
    unfold BinSite.mode2 at hm
    cases h : l.cpp <;> simp [h] at hm ⊢

theorem UnSite.passable (s : UnSite) (l : Lang) (o : Options) (id : Nat) :
    ∀ p ∈ (s.genFn l o id).params, p.Passable l.cpp := by
  intro p hp
  simp only [UnSite.genFn, List.mem_singleton] at hp
  rw [hp]
  intro hm
  have hc : l.cpp = true := by
    unfold UnSite.mode at hm
    cases h : l.cpp <;> simp [h] at hm ⊢
    split at hm <;> cases hm
  exact ⟨hc, by simp only [UnSite.inputTy, hc, if_true]; exact cpp_some l _⟩

theorem ExprSite.passable (s : ExprSite) (l : Lang) (o : Options) (id : Nat) :
    ∀ p ∈ (s.genFn l o id).params, p.Passable l.cpp := by
  intro p hp
  simp only [ExprSite.genFn, List.mem_singleton] at hp
  rw [hp]
  intro hm
  have hc : l.cpp = true := by
    unfold ExprSite.mode at hm
    cases h : l.cpp <;> simp [h] at hm ⊢
    split at hm <;> cases hm
  exact ⟨hc, by simp only [ExprSite.inputTy, hc, if_true]; exact cpp_some l _⟩


/-! ### Instrumented programs -/

/-- Where a phrase of kind `p` fits, apart from where a primary expression is asked for, one of kind
`q` does. -/
def Phrase.Sub (q p : Phrase) : Prop :=
  ∀ w, p.fits w = true → (∀ k, w = .expr k → k ≤ 16) → q.fits w = true

theorem Phrase.sub_refl (p : Phrase) : p.Sub p := fun _ h _ => h

theorem Phrase.sub_expr {j k : Nat} (h : 16 ≤ j) : Phrase.Sub (.expr j) (.expr k) := by
  intro w hw hk
  cases w with
  | expr m =>
    have := hk m rfl
    simp only [Phrase.fits, decide_eq_true_eq]
    omega
  | unfinished => rfl
  | _ => cases hw

/-- What the instrumented form of a phrase is: one phrase that may stand in its place, or for an item
of a block several items. -/
def Stands (p : Phrase) (ts : List Tree) : Prop :=
  (∃ q ks, ts = [.node q ks] ∧ q.Sub p) ∨ (p = .item ∧ ts ≠ [] ∧ ∀ t ∈ ts, t.Is .item)

theorem Stands.is {p w : Phrase} {ts : List Tree} (h : Stands p ts) (hi : p ≠ .item)
    (hw : p.fits w = true) (hk : ∀ k, w = .expr k → k ≤ 16) : ∃ t, ts = [t] ∧ t.Is w := by
  rcases h with ⟨q, ks, rfl, hq⟩ | ⟨rfl, -, -⟩
  · exact ⟨_, rfl, q, ks, rfl, hq w hw hk⟩
  · exact absurd rfl hi

theorem isExpr_fine {G : Grammar} {x : Syn} {k : Nat} {ts : List Tree} (h : x.isExpr k) (hk : k ≤ 16)
    (hs : ∀ p, x.phrase = some p → Stands p ts) (hv : Tree.ValidL G ts) :
    ∃ t, ts = [t] ∧ t.Fine G (.expr k) := by
  obtain ⟨j, hj, hkj, -⟩ := h
  obtain ⟨t, rfl, ht⟩ := (hs _ hj).is (w := .expr k) (by simp) (by simpa [Phrase.fits] using hkj)
    fun m hm => by cases hm; exact hk
  exact ⟨t, rfl, hv.1, ht⟩

theorem items_rule {G : Grammar} {cpp : Bool} (hG : G.Has cpp) {p : Phrase} {a b : List Sym} (n : Nat)
    (h : G.rule p (a ++ .nt .item :: b)) : G.rule p (a ++ (List.replicate (n + 1) (.nt .item) ++ b)) := by
  induction n with
  | zero => exact h
  | succ n ih =>
    have := hG.item p a (List.replicate n (.nt .item) ++ b) (by simpa [List.replicate_succ] using ih)
    simpa [List.replicate_succ] using this

theorem levels_pos {op : BOp} (h : op.fnName?.isSome = true) : 1 ≤ op.levels.2.1 ∧ 1 ≤ op.levels.2.2 ∧
    op.levels.2.1 ≤ 16 ∧ op.levels.2.2 ≤ 16 ∧ 1 ≤ op.levels.1 ∧ op.levels.1 ≤ 16 := by
  revert h
  cases op <;> decide

theorem BinSite.fine {G : Grammar} {l : Lang} (hG : G.Has l.cpp) (s : BinSite) (o : Options) (id : Nat)
    {x y : Tree} (hx : x.Fine G (.expr 1)) (hy : y.Fine G (.expr 1)) :
    ((s.genFn l o id).callTree [(false, x), (false, y)] id).Fine G (.expr 16) := by
  have hp := s.passable l o id
  refine Tree.call_fine hG (by simpa [BinSite.genFn] using s.name_dredd l o.optimise []) (wordText_all (s.name_word _ _)) ?_
  intro t ht
  simp only [BinSite.genFn, List.zip_cons_cons, List.zip_nil_right, List.map_cons, List.map_nil,
    List.mem_append, List.mem_cons, List.not_mem_nil, or_false] at ht hp
  rcases ht with (rfl | rfl) | rfl
  · exact Param.pass_fine hG (hp _ (.inl rfl)) (hx.mono (by omega)) fun _ => hx
  · exact Param.pass_fine hG (hp _ (.inr rfl)) (hy.mono (by omega)) fun _ => hy
  · exact (Tree.num_fine hG id).mono (by omega)

theorem UnSite.fine {G : Grammar} {l : Lang} (hG : G.Has l.cpp) (s : UnSite) (o : Options) (id : Nat)
    {x : Tree} {c : Bool} (hx : x.Fine G (.expr 1)) :
    ((s.genFn l o id).callTree [(c, x)] id).Fine G (.expr 16) := by
  have hp := s.passable l o id
  refine Tree.call_fine hG (s.name_dredd l o.optimise) (wordText_all (s.name_word _ _)) ?_
  intro t ht
  simp only [UnSite.genFn, List.zip_cons_cons, List.zip_nil_right, List.map_cons, List.map_nil,
    List.mem_append, List.mem_cons, List.not_mem_nil, or_false] at ht hp
  rcases ht with rfl | rfl
  · exact Param.pass_fine hG (hp _ rfl) (hx.mono (by omega)) fun _ => hx
  · exact (Tree.num_fine hG id).mono (by omega)

theorem ExprSite.fine {G : Grammar} {l : Lang} (hG : G.Has l.cpp) (s : ExprSite) (o : Options) (id : Nat)
    {x : Tree} {c : Bool} (hx : x.Fine G (.expr 0))
    (h1 : x.Fine G (.expr 1) ∨ l.cpp = true ∧ s.self.sideEffects = true) :
    ((s.genFn l o id).callTree [(c, x)] id).Fine G (.expr 16) := by
  have hp := s.passable l o id
  refine Tree.call_fine hG (s.name_dredd l o.optimise) (wordText_all (s.name_word _ _)) ?_
  intro t ht
  simp only [ExprSite.genFn, List.zip_cons_cons, List.zip_nil_right, List.map_cons, List.map_nil,
    List.mem_append, List.mem_cons, List.not_mem_nil, or_false] at ht hp
  rcases ht with rfl | rfl
  · refine Param.pass_fine hG (hp _ rfl) hx fun hm => ?_
    rcases h1 with h1 | ⟨hc, hs⟩
    · exact h1
    · exact absurd (by simp [ExprSite.mode, hc, hs]) hm
  · exact (Tree.num_fine hG id).mono (by omega)

/-- A call around a value in C. -/
theorem value_fine {G : Grammar} {cpp : Bool} (hG : G.Has cpp) {f : MutFn} {a : Arg} {ty : Text} (id : Nat)
    (hf : f.params = [⟨a, ty, .value⟩]) (h1 : t!"__dredd_" <+: f.name) (h2 : wordText f.name = true)
    {x : Tree} (hx : x.Fine G (.expr 1)) : (f.callTree [(false, x)] id).Fine G (.expr 16) := by
  refine Tree.call_fine hG h1 (wordText_all h2) ?_
  intro t ht
  simp only [hf, List.zip_cons_cons, List.zip_nil_right, List.map_cons, List.map_nil,
    List.mem_append, List.mem_cons, List.not_mem_nil, or_false] at ht
  rcases ht with rfl | rfl
  · exact hx
  · exact (Tree.num_fine hG id).mono (by omega)

theorem BinSite.logical_fine {G : Grammar} {l : Lang} (hG : G.Has l.cpp) (s : BinSite) (o : Options)
    (id : Nat) (hl : s.op.isLogical = true) {x y : Tree} (hx : x.Fine G (.expr s.op.levels.2.1))
    (hy : y.Fine G (.expr s.op.levels.2.2)) :
    ((cLogicalOuterFn s l o).callTree [(false,
      if o.track then .node (.expr s.op.levels.1) [x, .tok s.op.str, y]
      else .node (.expr s.op.levels.1) [(cLogicalLhsFn s l o).callTree [(false, x)] id, .tok s.op.str,
        (cLogicalRhsFn s l o).callTree [(false, y)] id])] id).Fine G (.expr 16) := by
  have hw (z : Text) (hz : z.all wordChar = true) := wordText_append (s.name_word l o.optimise) hz
  have hv : 1 ≤ s.op.levels.2.1 ∧ 1 ≤ s.op.levels.2.2 ∧ s.op.levels.2.1 ≤ 16 ∧ s.op.levels.2.2 ≤ 16 ∧
      1 ≤ s.op.levels.1 := by
    revert hl
    cases s.op <;> decide
  have key : ∀ u v : Tree, u.Fine G (.expr s.op.levels.2.1) → v.Fine G (.expr s.op.levels.2.2) →
      (Tree.node (.expr s.op.levels.1) [u, .tok s.op.str, v]).Fine G (.expr 1) := by
    rintro u v ⟨hu, q, ks, rfl, hq⟩ ⟨hv', q', ks', rfl, hq'⟩
    refine ⟨⟨⟨_, hG.logical s.op hl, hq, rfl, hq', trivial⟩, hu, trivial, hv', trivial⟩, _, _, rfl, ?_⟩
    simp only [Phrase.fits, decide_eq_true_eq]
    omega
  refine value_fine hG id rfl (s.name_dredd l o.optimise _) (hw _ (by decide)) ?_
  split
  · exact key _ _ hx hy
  · exact key _ _
      ((value_fine hG id rfl (s.name_dredd l o.optimise _) (hw _ (by decide)) (hx.mono hv.1)).mono
        (by omega))
      ((value_fine hG id rfl (s.name_dredd l o.optimise _) (hw _ (by decide)) (hy.mono hv.2.1)).mono
        (by omega))

theorem withSemi_fine {G : Grammar} {cpp : Bool} (hG : G.Has cpp) {u semi : Bool} {t : Tree}
    (h : u = true ∧ semi = true ∧ t.Fine G .unfinished ∨ u = false ∧ t.Fine G .item) :
    ∀ x ∈ withSemi u semi t, x.Fine G .item := by
  have up : ∀ x : Tree, x.Fine G .closed → x.Fine G .item := by
    rintro x ⟨hv, q, ks, rfl, hq⟩
    refine ⟨hv, q, ks, rfl, ?_⟩
    cases q <;> simp_all [Phrase.fits]
  rcases h with ⟨rfl, rfl, h⟩ | ⟨rfl, h⟩
  · intro x hx
    simp only [withSemi, if_true, List.mem_singleton] at hx
    rw [hx]
    exact up _ (Tree.semi_fine hG h)
  · intro x hx
    cases semi with
    | false =>
      simp only [withSemi, Bool.false_eq_true, if_false, List.mem_singleton] at hx
      rw [hx]
      exact h
    | true =>
      simp only [withSemi, if_true, Bool.false_eq_true, if_false, List.mem_cons, List.not_mem_nil,
        or_false] at hx
      rcases hx with rfl | rfl
      · exact h
      · exact ⟨⟨⟨_, hG.null, rfl, trivial⟩, trivial, trivial⟩, _, _, rfl, rfl⟩

theorem fits_not_unfinished {p : Phrase} (h : p.fits .item = true) : p.fits .unfinished = false := by
  cases p <;> simp_all [Phrase.fits]

theorem withSemi_ne (u semi : Bool) (t : Tree) : withSemi u semi t ≠ [] := by
  unfold withSemi
  split
  · split <;> simp
  · simp

theorem gapLay_muts (g : Text) : Lay.mutsL (gapLay g) = [] := by
  unfold gapLay
  split <;> rfl

mutual
theorem Syn.instr_fine {G : Grammar} {l : Lang} (hG : G.Has l.cpp) (o : Options) : (x : Syn) → (id : Nat) →
    x.Parsed G l.cpp → (∀ m ∈ Lay.mutsL x.lay, m.Readable l) →
    Tree.ValidL G (x.instr l o id) ∧ ∀ p, x.phrase = some p → Stands p (x.instr l o id)
  | .tok t, id, _, _ => ⟨⟨trivial, trivial⟩, by simp [Syn.phrase]⟩
  | .gap g, id, _, _ => ⟨trivial, by simp [Syn.phrase]⟩
  | .const old v, id, _, _ => by
    refine ⟨⟨(Tree.num_fine hG v).1, trivial⟩, fun p hp => .inl ⟨_, _, rfl, ?_⟩⟩
    simp only [Syn.phrase, Option.some.injEq] at hp
    rw [← hp]
    exact Phrase.sub_refl _
  | .node p ks, id, hp, hm => by
    obtain ⟨⟨ss, hr, hs⟩, _, hk⟩ := hp
    obtain ⟨hv, ss', hr', hs'⟩ := Syn.instrL_fine hG o ks id hk hm [] ss p hr hs
    refine ⟨⟨⟨⟨ss', hr', hs'⟩, hv⟩, trivial⟩, fun q hq => .inl ⟨_, _, rfl, ?_⟩⟩
    simp only [Syn.phrase, Option.some.injEq] at hq
    rw [← hq]
    exact Phrase.sub_refl _
  | .expr s x, id, hp, hm => by
    obtain ⟨he, hc, hx⟩ := hp
    simp only [Syn.lay, Lay.mutsL, Lay.muts, List.append_nil, List.mem_append, List.mem_singleton] at hm
    obtain ⟨hv, hst⟩ := Syn.instr_fine hG o x id hx fun m h => hm m (.inl h)
    have h0 : x.isExpr 0 := by
      rcases he with ⟨j, h1, h2, h3⟩ | ⟨h, -⟩
      · exact ⟨j, h1, by omega, h3⟩
      · exact h
    obtain ⟨t, ht, hf⟩ := isExpr_fine h0 (by omega) hst hv
    have h1 : t.Fine G (.expr 1) ∨ s.binOp = some .comma ∨ l.cpp = true ∧ s.self.sideEffects = true := by
      rcases he with h | ⟨-, h⟩
      · obtain ⟨t', ht', hf'⟩ := isExpr_fine h (by omega) hst hv
        rw [ht] at ht'
        cases ht'
        exact .inl hf'
      · exact .inr h
    rw [ht] at hst
    simp only [Syn.instr, ht, List.map_cons, List.map_nil]
    have hcall : ∀ id', ((s.genFn l o id').callTree [(s.self.cxx11Const,
        if s.binOp = some .comma then Tree.paren t else t)] id').Fine G (.expr 16) := by
      intro id'
      split
      · rename_i hb
        have := Tree.paren_fine hG hf
        exact s.fine hG o id' (this.mono (by omega)) (.inl (this.mono (by omega)))
      · rename_i hb
        refine s.fine hG o id' hf ?_
        rcases h1 with h | h | h
        · exact .inl h
        · exact absurd h hb
        · exact .inr h
    generalize id + countAll l o.optimise (Lay.mutsL x.lay) = id'
    have hcall := hcall id'
    have key : ∀ u : Tree, u.Fine G (.expr 16) → Tree.ValidL G [u] ∧
        ∀ p, (Syn.expr s x).phrase = some p → Stands p [u] := by
      rintro u ⟨hv, q, ks, rfl, hq⟩
      refine ⟨⟨hv, trivial⟩, fun p hp => .inl ⟨q, ks, rfl, ?_⟩⟩
      obtain ⟨j, hj, -, -⟩ := h0
      simp only [Syn.phrase] at hp
      rw [hj] at hp
      cases hp
      cases q <;> simp [Phrase.fits] at hq
      exact Phrase.sub_expr hq
    cases hi : s.initListCast with
    | none => exact key _ hcall
    | some ty =>
      exact key _ (Tree.cast_fine hG (hc (by simp [hi])) (name_some l ty) (hcall.mono (by omega)))
  | .bin s a g1 g2 b, id, hp, hm => by
    obtain ⟨ha, hb, hpa, hpb⟩ := hp
    simp only [Syn.lay, Lay.mutsL, Lay.muts, List.append_nil, List.mem_append, List.mem_singleton] at hm
    have hr : s.op.fnName?.isSome = true := hm (.bin s) (.inr rfl)
    have hl := levels_pos hr
    obtain ⟨hva, hsa⟩ := Syn.instr_fine hG o a id hpa fun m h => hm m (.inl (.inl h))
    obtain ⟨hvb, hsb⟩ := Syn.instr_fine hG o b (id + countAll l o.optimise (Lay.mutsL a.lay)) hpb
      fun m h => hm m (.inl (.inr h))
    obtain ⟨x, hx, hfx⟩ := isExpr_fine ha hl.2.2.1 hsa hva
    obtain ⟨y, hy, hfy⟩ := isExpr_fine hb hl.2.2.2.1 hsb hvb
    simp only [Syn.instr, hx, hy, List.flatMap_cons, List.flatMap_nil, List.map_cons, List.map_nil,
      List.append_nil]
    have key : ∀ u : Tree, u.Fine G (.expr 16) → Tree.ValidL G [u] ∧
        ∀ p, (Syn.bin s a g1 g2 b).phrase = some p → Stands p [u] := by
      rintro u ⟨hv, q, ks, rfl, hq⟩
      refine ⟨⟨hv, trivial⟩, fun p hp => .inl ⟨q, ks, rfl, ?_⟩⟩
      simp only [Syn.phrase, Option.some.injEq] at hp
      cases hp
      cases q <;> simp [Phrase.fits] at hq
      exact Phrase.sub_expr hq
    split
    · rename_i hc
      simp only [Bool.and_eq_true] at hc
      exact key _ (s.logical_fine hG o _ hc.2 hfx hfy)
    · exact key _ (s.fine hG o _ (hfx.mono hl.1) (hfy.mono hl.2.1))
  | .pre s g x, id, hp, hm => by
    simp only [Syn.lay, Lay.mutsL, Lay.muts, Lay.mutsL_append, gapLay_muts, List.nil_append,
      List.append_nil, List.mem_append, List.mem_singleton] at hm
    obtain ⟨hv, hst⟩ := Syn.instr_fine hG o x id hp.2 fun m h => hm m (.inl h)
    obtain ⟨t, ht, hf⟩ := isExpr_fine hp.1 (by omega) hst hv
    simp only [Syn.instr, ht, List.map_cons, List.map_nil]
    have := s.fine hG o (id + countAll l o.optimise (Lay.mutsL x.lay)) (c := s.sub.cxx11Const)
      (hf.mono (by omega))
    obtain ⟨hv, q, ks, he, hq⟩ := this
    refine ⟨⟨hv, trivial⟩, fun p hp => .inl ⟨q, ks, by rw [he], ?_⟩⟩
    simp only [Syn.phrase, Option.some.injEq] at hp
    cases hp
    cases q <;> simp [Phrase.fits] at hq
    exact Phrase.sub_expr hq
  | .post s x g, id, hp, hm => by
    simp only [Syn.lay, Lay.mutsL, Lay.muts, Lay.mutsL_append, gapLay_muts, List.append_nil,
      List.mem_append, List.mem_singleton] at hm
    obtain ⟨hv, hst⟩ := Syn.instr_fine hG o x id hp.2 fun m h => hm m (.inl h)
    obtain ⟨t, ht, hf⟩ := isExpr_fine hp.1 (by omega) hst hv
    simp only [Syn.instr, ht, List.map_cons, List.map_nil]
    have := s.fine hG o (id + countAll l o.optimise (Lay.mutsL x.lay)) (c := s.sub.cxx11Const)
      (hf.mono (by omega))
    obtain ⟨hv, q, ks, he, hq⟩ := this
    refine ⟨⟨hv, trivial⟩, fun p hp => .inl ⟨q, ks, by rw [he], ?_⟩⟩
    simp only [Syn.phrase, Option.some.injEq] at hp
    cases hp
    cases q <;> simp [Phrase.fits] at hq
    exact Phrase.sub_expr hq
  | .stmt s x ext, id, hp, hm => by
    obtain ⟨hse, ⟨p, hpx, hcase⟩, hx⟩ := hp
    simp only [Syn.lay, Lay.mutsL, Lay.muts, List.append_nil, List.mem_append, List.mem_singleton] at hm
    obtain ⟨hv, hst⟩ := Syn.instr_fine hG o x id hx fun m h => hm m (.inl h)
    have hst := hst p hpx
    simp only [Syn.instr, hpx, Option.map_some, Option.getD_some]
    generalize id + countAll l o.optimise (Lay.mutsL x.lay) = id'
    have hfine : ∃ t, x.instr l o id = [t] ∧ ∀ b, (tokens ext = [t!";"] → b = true) →
        ∀ y ∈ withSemi (p.fits .unfinished) b t, y.Fine G .item := by
      rcases hcase with ⟨hu, he⟩ | ⟨hi, hni, he⟩
      · have hni : p ≠ .item := by rintro rfl; cases hu
        obtain ⟨t, ht, hT⟩ := hst.is hni hu (by intro k hk; cases hk)
        rw [ht] at hv
        exact ⟨t, ht, fun b hb => withSemi_fine hG (.inl ⟨hu, hb he, hv.1, hT⟩)⟩
      · obtain ⟨t, ht, hT⟩ := hst.is hni hi (by intro k hk; cases hk)
        rw [ht] at hv
        exact ⟨t, ht, fun b hb => withSemi_fine hG (.inr ⟨fits_not_unfinished hi, hv.1, hT⟩)⟩
    obtain ⟨t, ht, hT⟩ := hfine
    rw [ht]
    simp only [List.flatMap_cons, List.flatMap_nil, List.append_nil]
    have key : ∀ us : List Tree, us ≠ [] → (∀ u ∈ us, u.Fine G .item) → Tree.ValidL G us ∧
        ∀ q, (Syn.stmt s x ext).phrase = some q → Stands q us := by
      intro us hne hus
      refine ⟨Tree.validL_mem.mpr fun u hu => (hus u hu).1, fun q hq => .inr ⟨?_, hne, fun u hu => (hus u hu).2⟩⟩
      simp only [Syn.phrase, Option.some.injEq] at hq
      exact hq.symm
    have up : ∀ x : Tree, x.Fine G .closed ∨ x.Fine G .stmt → x.Fine G .item := by
      rintro x (⟨hv, q, ks, rfl, hq⟩ | ⟨hv, q, ks, rfl, hq⟩) <;> refine ⟨hv, q, ks, rfl, ?_⟩ <;>
        cases q <;> simp_all [Phrase.fits]
    split
    · refine key _ (by simp) fun u hu => ?_
      rcases List.mem_cons.1 hu with rfl | hu
      · have hc : (Tree.call t!"__dredd_record_covered_mutants" [.num id', .num 1]).Fine G (.expr 16) := by
          refine Tree.call_fine hG ⟨_, rfl⟩ (by decide) fun t ht => ?_
          simp only [List.mem_cons, List.not_mem_nil, or_false] at ht
          rcases ht with rfl | rfl <;> exact (Tree.num_fine hG _).mono (by omega)
        exact up _ (.inl (Tree.semi_fine hG ⟨hc.1, _, _, rfl, rfl⟩))
      · exact hT _ (by simp) u hu
    · refine key _ (by simp) fun u hu => ?_
      rw [List.mem_singleton.1 hu]
      refine up _ (.inr (Tree.guarded_fine hG ⟨_, rfl⟩ (by decide) (hT _ ?_)))
      intro h
      simp [h]

theorem Syn.instrL_fine {G : Grammar} {l : Lang} (hG : G.Has l.cpp) (o : Options) : (xs : List Syn) →
    (id : Nat) → Syn.ParsedL G l.cpp xs → (∀ m ∈ Lay.mutsL (Syn.layL xs), m.Readable l) →
    ∀ front ss p, G.rule p (front ++ ss) → Syn.Match xs ss →
    Tree.ValidL G (Syn.instrL l o id xs) ∧
      ∃ ss', G.rule p (front ++ ss') ∧ Tree.Match (Syn.instrL l o id xs) ss'
  | [], id, _, _, front, ss, p, hr, hs => by
    cases ss with
    | nil => exact ⟨trivial, [], hr, trivial⟩
    | cons => exact hs.elim
  | x :: xs, id, hp, hm, front, ss, p, hr, hs => by
    simp only [Syn.layL, Lay.mutsL_append, List.mem_append] at hm
    have ih := Syn.instrL_fine hG o xs (id + countAll l o.optimise (Lay.mutsL x.lay)) hp.2
      fun m h => hm m (.inr h)
    obtain ⟨hv, hst⟩ := Syn.instr_fine hG o x id hp.1 fun m h => hm m (.inl h)
    have phr : ∀ q ss1, ss = .nt q :: ss1 → (∃ p, x.phrase = some p ∧ p.fits q = true) →
        Syn.Match xs ss1 → Tree.ValidL G (Syn.instrL l o id (x :: xs)) ∧
          ∃ ss', G.rule p (front ++ ss') ∧ Tree.Match (Syn.instrL l o id (x :: xs)) ss' := by
      rintro q ss1 rfl ⟨r, hx, hq⟩ hs1
      rcases hst r hx with ⟨q', ks, he, hsub⟩ | ⟨rfl, hne, hall⟩
      · obtain ⟨hv', ss', hr', hs'⟩ := ih (front ++ [.nt q]) ss1 p (by simpa using hr) hs1
        refine ⟨?_, .nt q :: ss', by simpa using hr', ?_⟩
        · rw [Syn.instrL, Tree.validL_append]
          exact ⟨hv, hv'⟩
        · rw [Syn.instrL, he]
          refine ⟨hsub q hq ?_, hs'⟩
          rintro k rfl
          exact hG.loose _ _ k hr (by simp)
      · have hqi : q = .item := by cases q <;> simp_all [Phrase.fits]
        subst hqi
        have hn : (x.instr l o id).length - 1 + 1 = (x.instr l o id).length := by
          have := List.length_pos_iff.mpr hne
          omega
        have hr1 := items_rule hG ((x.instr l o id).length - 1) hr
        rw [hn] at hr1
        obtain ⟨hv', ss', hr', hs'⟩ := ih (front ++ List.replicate (x.instr l o id).length (.nt .item)) ss1 p
          (by simpa using hr1) hs1
        refine ⟨?_, List.replicate (x.instr l o id).length (.nt .item) ++ ss', by simpa using hr', ?_⟩
        · rw [Syn.instrL, Tree.validL_append]
          exact ⟨hv, hv'⟩
        · rw [Syn.instrL]
          exact Tree.match_append (Tree.match_is hall) hs'
    cases x with
    | gap g =>
      have hs : Syn.Match xs ss := by
        cases ss <;> exact hs
      exact ih front ss p hr hs
    | tok t =>
      rcases ss with _ | ⟨s | s, ss⟩
      · exact hs.elim
      · simp only [Syn.Match] at hs
        obtain ⟨rfl, hs⟩ := hs
        obtain ⟨hv', ss', hr', hs'⟩ := ih (front ++ [.tok t]) ss p (by simpa using hr) hs
        refine ⟨⟨trivial, hv'⟩, .tok t :: ss', by simpa using hr', rfl, hs'⟩
      · simp [Syn.Match, Syn.phrase] at hs
    | _ =>
      rcases ss with _ | ⟨s | s, ss⟩
      · exact hs.elim
      · exact hs.elim
      · exact phr _ _ rfl hs.1 hs.2
end

end Dredd
