/-
The edits of a tree of instrumented pieces wrap every piece around its parts.
-/
import Verif.Spec.Layout
import Verif.Proofs.Rewrite

namespace Dredd

/-- The replacements made for constants (as in `finishEdits`). -/
def constEdits (cs : List ConstRewrite) : List Edit :=
  cs.map fun c => .replace c.span.b (c.span.e - c.span.b) (natDec c.value)

@[simp] theorem constEdits_nil : constEdits [] = [] := rfl
@[simp] theorem constEdits_append (as bs) :
    constEdits (as ++ bs) = constEdits as ++ constEdits bs := by simp [constEdits]

@[simp] theorem befores_constEdits (cs p) : befores (constEdits cs) p = [] := by
  simp [befores, constEdits, Edit.beforeAt]
@[simp] theorem afters_constEdits (cs p) : afters (constEdits cs) p = [] := by
  simp [afters, constEdits, Edit.afterAt]

theorem or_swap (a b c d : Bool) : (a || b || (c || d)) = (a || c || (b || d)) := by
  cases a <;> cases b <;> cases c <;> cases d <;> rfl

/-- Edits of two parts of the text, the first in front of the second. -/
theorem sameAt_parts {A1 A2 : List Edit} {C1 C2 : List ConstRewrite} {o1 n1 o2 n2 : Nat}
    (h1 : Within (A1 ++ constEdits C1) o1 n1) (h2 : Within (A2 ++ constEdits C2) o2 n2)
    (h : o1 + n1 ≤ o2) (p : Nat) :
    SameAt ((A1 ++ constEdits C1) ++ (A2 ++ constEdits C2))
      (A1 ++ A2 ++ (constEdits C1 ++ constEdits C2)) p := by
  constructor
  · simp [befores_append]
  · simp [afters_append]
  · by_cases hp : p < o2
    · have := h2.rep p (.inl hp)
      simp only [replacements_append, List.append_eq_nil_iff] at this
      simp [replacements_append, this]
    · have := h1.rep p (.inr (by omega))
      simp only [replacements_append, List.append_eq_nil_iff] at this
      simp [replacements_append, this]
  · simp only [removed_append, or_swap]

/-- Insertions and the replacements of constants can be exchanged. -/
theorem sameAt_insert {A W : List Edit} {C : List ConstRewrite}
    (h : ∀ p, replacements W p = [] ∨ replacements (constEdits C) p = []) (p : Nat) :
    SameAt ((A ++ constEdits C) ++ W) (A ++ W ++ constEdits C) p := by
  constructor
  · simp [befores_append]
  · simp [afters_append]
  · rcases h p with h | h <;> simp [replacements_append, h]
  · simp only [removed_append]
    cases removed A p <;> cases removed W p <;> cases removed (constEdits C) p <;> rfl

theorem BOp.str_ne (op : BOp) : op.str ≠ [] := by cases op <;> decide
theorem UOp.str_ne (op : UOp) : op.str ≠ [] := by cases op <;> decide

/-- The edits of an expression wrap it. -/
theorem ExprSite.turns (s : ExprSite) (l : Lang) (o : Options) (k : Nat) {E : List Edit}
    {off : Nat} {src x : Text} (hE : Turns E off src x) (hs : src ≠ [])
    (hspan : s.span = ⟨off, off + src.length⟩) :
    Turns (E ++ s.edits l o k) off src (s.wrapText l o k x) := by
  unfold ExprSite.edits ExprSite.wrapText
  simp only [hspan]
  have := fun pre post => hE.wrap hs pre post
  generalize (l.cpp && s.self.sideEffects) = b1
  generalize (!l.cpp && s.self.lvalue && (s.inputTy l).getLast? == some '*') = b2
  generalize (s.binOp == some .comma) = b3
  generalize s.initListCast = ic
  generalize s.precIdent = b4
  generalize s.self.cxx11Const = b5
  cases b1 <;> cases b2 <;> cases b3 <;> cases ic <;> cases b4 <;> cases b5 <;>
    (refine cast (congrArg _ ?_) (this _ _)
     simp [renderPieces, Piece.render, callText, addr, paren, thunkE, thunk, exprLambdaPrefix,
       exprLambdaSuffix])

/-- The edits of a statement wrap it. -/
theorem StmtSite.turns (s : StmtSite) (o : Options) (k : Nat) {E : List Edit}
    {off : Nat} {src x : Text} (hE : Turns E off src x) (hs : src ≠ [])
    (hb : s.span.b = off) (he : s.extEnd = off + src.length) :
    Turns (E ++ s.edits o k) off src (s.wrapText o k x) := by
  unfold StmtSite.edits StmtSite.wrapText StmtSite.closing
  simp only [hb, he]
  have hw := fun pre post => hE.wrap hs pre post
  cases o.track
  · generalize s.extComment = b1
    generalize s.extSemi = b2
    generalize s.nextHash = b3
    cases b1 <;> cases b2 <;> cases b3 <;>
    (refine cast (congrArg _ ?_) (hw _ _)
     simp [renderPieces, Piece.render])
  · have := hw [.txt (t!"__dredd_record_covered_mutants" ++ nodeComment o s.node ++ t!"("),
         .id k, .txt t!", 1); "] []
    have h2 := this.congr
      (B := E ++ [.before off [.txt (t!"__dredd_record_covered_mutants" ++ nodeComment o s.node
        ++ t!"("), .id k, .txt t!", 1); "]]) fun p => by
        constructor
        · simp [befores_append, befores, Edit.beforeAt]
        · simp [afters_append, afters, Edit.afterAt, renderPieces]
        · simp [replacements_append, replacements, Edit.replaceAt]
        · simp [removed_append, removed, Edit.removesAt]
    simpa [renderPieces, Piece.render] using h2


theorem UnSite.turns_pre (s : UnSite) (l : Lang) (o : Options) (k : Nat) {E : List Edit}
    {off : Nat} {src x : Text} (hE : Turns E (off + s.op.str.length) src x)
    (hop : s.opOff = some off) (hspan : s.span = ⟨off, off + s.op.str.length + src.length⟩) :
    Turns (E ++ s.edits l o k) off (s.op.str ++ src) (s.wrapText l o k x) := by
  have h1 := (Turns.replace off s.op.str [] s.op.str_ne).append hE
    (.inl (by simp [afters, Edit.afterAt]))
  have hpos : 0 < s.op.str.length := List.length_pos_iff.2 s.op.str_ne
  have hw := fun pre post => h1.wrap (by simp [s.op.str_ne]) pre post
  have hcomm : ∀ pre post p, SameAt
      ([.replace off s.op.str.length []] ++ E ++
        [.before off pre, .after (off + (s.op.str ++ src).length) post])
      (E ++ [.replace off s.op.str.length [], .before off pre,
        .after (off + s.op.str.length + src.length) post]) p := by
    intro pre post p
    rw [show off + (s.op.str ++ src).length = off + s.op.str.length + src.length by simp; omega]
    constructor
    · simp [befores_append, befores, Edit.beforeAt]
    · simp [afters, Edit.afterAt]
    · simp [Dredd.replacements, Edit.replaceAt]
    · simp only [removed, List.any_append, List.any_cons, List.any_nil]
      cases E.any (Edit.removesAt p) <;> simp
  have hw := fun pre post => (hw pre post).congr (hcomm pre post)
  unfold UnSite.edits UnSite.wrapText
  simp only [hspan, hop]
  generalize s.sub.cxx11Const = b3
  cases hc : l.cpp
  · generalize s.op.isIncDec = b2
    cases b2 <;> cases b3 <;>
    (refine cast (congrArg _ ?_) (hw _ _)
     simp [renderPieces, Piece.render, callText, addr])
  · generalize s.self.sideEffects = b1
    cases b1 <;> cases b3 <;>
    (refine cast (congrArg _ ?_) (hw _ _)
     simp [renderPieces, Piece.render, callText, addr, thunkE, thunk, exprLambdaPrefix,
       exprLambdaSuffix])

theorem UnSite.turns_post (s : UnSite) (l : Lang) (o : Options) (k : Nat) {E : List Edit}
    {off : Nat} {src x : Text} (hE : Turns E off src x)
    (hop : s.opOff = some (off + src.length))
    (hspan : s.span = ⟨off, off + src.length + s.op.str.length⟩) :
    Turns (E ++ s.edits l o k) off (src ++ s.op.str) (s.wrapText l o k x) := by
  have h1 := hE.append (Turns.replace (off + src.length) s.op.str [] s.op.str_ne)
    (.inr (by simp [befores, Edit.beforeAt]))
  have hw := fun pre post => h1.wrap (by simp [s.op.str_ne]) pre post
  have hcomm : ∀ pre post p, SameAt
      (E ++ [.replace (off + src.length) s.op.str.length []] ++
        [.before off pre, .after (off + (src ++ s.op.str).length) post])
      (E ++ [.replace (off + src.length) s.op.str.length [], .before off pre,
        .after (off + src.length + s.op.str.length) post]) p := by
    intro pre post p
    rw [show off + (src ++ s.op.str).length = off + src.length + s.op.str.length by simp; omega]
    constructor <;> simp
  have hw := fun pre post => (hw pre post).congr (hcomm pre post)
  unfold UnSite.edits UnSite.wrapText
  simp only [hspan, hop]
  generalize s.sub.cxx11Const = b3
  cases hc : l.cpp
  · generalize s.op.isIncDec = b2
    cases b2 <;> cases b3 <;>
    (refine cast (congrArg _ ?_) (hw _ _)
     simp [renderPieces, Piece.render, callText, addr])
  · generalize s.self.sideEffects = b1
    cases b1 <;> cases b3 <;>
    (refine cast (congrArg _ ?_) (hw _ _)
     simp [renderPieces, Piece.render, callText, addr, thunkE, thunk, exprLambdaPrefix,
       exprLambdaSuffix])

/-- Two parts of the text with other text between them: the edits of the parts,
replacements between them, and insertions around the parts. -/
theorem Turns.two {E1 E2 M : List Edit} {off : Nat} {u v x y mid z : Text}
    (h1 : Turns E1 off u x) (hM : Turns M (off + u.length) mid z)
    (h2 : Turns E2 (off + u.length + mid.length) v y)
    (hMb : ∀ p, befores M p = []) (hMa : ∀ p, afters M p = [])
    (hu : u ≠ []) (hv : v ≠ []) (hmid : mid ≠ []) (p1 q1 p2 q2 : List Piece) :
    Turns (E1 ++ E2 ++ (M ++
        [.before off p1, .after (off + u.length) q1,
         .before (off + u.length + mid.length) p2,
         .after (off + u.length + mid.length + v.length) q2]))
      off (u ++ mid ++ v)
      (renderPieces p1 ++ x ++ renderPieces q1 ++ z
        ++ (renderPieces p2 ++ y ++ renderPieces q2)) := by
  have hpos : 0 < mid.length := List.length_pos_iff.2 hmid
  have hlen : (u ++ mid).length = u.length + mid.length := List.length_append
  have t3 := ((h1.wrap hu p1 q1).append hM (.inr (hMb _))).append
    (h2.wrap hv p2 q2 |> fun h => by
      rw [show off + u.length + mid.length = off + (u ++ mid).length by rw [hlen]; omega] at h
      exact h) (.inl ?_)
  · refine t3.congr fun p => ?_
    rw [show off + (u ++ mid).length = off + u.length + mid.length by rw [hlen]; omega]
    constructor
    · have hn : befores [] p = [] := rfl
      simp only [befores_append, befores_cons, Edit.beforeAt, List.append_nil, List.nil_append,
        hn, hMb]
      by_cases hp : off = p
      · subst hp
        rw [h2.within.bef off (.inl (by omega))]
        simp
      · simp [hp]
    · have hcons : ∀ e es, afters (e :: es) p = e.afterAt p ++ afters es p := by
        intro e es; simp [afters]
      have hn : afters [] p = [] := rfl
      simp only [afters_append, hcons, Edit.afterAt, hn, List.append_nil, List.nil_append, hMa]
      by_cases hp : off + u.length = p
      · subst hp
        rw [h2.within.aft _ (.inl (by omega))]
        simp
      · simp [hp]
    · have hcons : ∀ e es, replacements (e :: es) p = e.replaceAt p ++ replacements es p := by
        intro e es; simp [replacements]
      have hn : replacements [] p = [] := rfl
      simp only [replacements_append, hcons, Edit.replaceAt, hn, List.append_nil, List.nil_append]
      by_cases hp : p < off + u.length + mid.length
      · rw [h2.within.rep _ (.inl hp)]
        simp
      · rw [hM.within.rep p (.inr (by omega))]
        simp
    · have hcons : ∀ e es, removed (e :: es) p = (e.removesAt p || removed es p) := by
        intro e es; simp [removed]
      have hn : removed [] p = false := rfl
      simp only [removed_append, hcons, hn, Edit.removesAt]
      generalize removed E1 p = a
      generalize removed E2 p = b
      generalize removed M p = c
      cases a <;> cases b <;> cases c <;> rfl
  · have hgt : off + u.length < off + (u ++ mid).length := by rw [hlen]; omega
    simp only [afters_append, hMa]
    rw [h1.within.aft _ (.inr hgt)]
    simp only [afters, Edit.afterAt, List.flatMap_cons, List.flatMap_nil, List.append_nil,
      List.nil_append]
    rw [if_neg (Nat.ne_of_lt hgt)]

theorem BinSite.turns (s : BinSite) (l : Lang) (o : Options) (first k : Nat) {E1 E2 : List Edit}
    {off : Nat} {u v g1 g2 x y : Text} (h1 : Turns E1 off u x)
    (h2 : Turns E2 (off + u.length + g1.length + s.op.str.length + g2.length) v y)
    (hu : u ≠ []) (hv : v ≠ [])
    (hl : s.lhsSpan = ⟨off, off + u.length⟩) (hop : s.opOff = some (off + u.length + g1.length))
    (hr : s.rhsSpan = ⟨off + u.length + g1.length + s.op.str.length + g2.length,
      off + u.length + g1.length + s.op.str.length + g2.length + v.length⟩)
    (hsp : s.span = ⟨off,
      off + u.length + g1.length + s.op.str.length + g2.length + v.length⟩) :
    Turns (E1 ++ E2 ++ (s.apply l o first (first + k)).edits) off
      (u ++ g1 ++ s.op.str ++ g2 ++ v) (s.wrapText l o k x g1 g2 y) := by
  have hk : first + k - first = k := by omega
  have hmid : g1 ++ s.op.str ++ g2 ≠ [] := by simp [s.op.str_ne]
  have hlen : off + u.length + (g1 ++ s.op.str ++ g2).length
      = off + u.length + g1.length + s.op.str.length + g2.length := by
    simp only [List.length_append]; omega
  rw [← hlen] at h2 hr hsp
  have hsrc : u ++ g1 ++ s.op.str ++ g2 ++ v = u ++ (g1 ++ s.op.str ++ g2) ++ v := by simp
  rw [hsrc]
  by_cases hc : (!l.cpp && s.op.isLogical) = true
  · have t := fun p1 q1 p2 q2 => h1.two (Turns.nil _ (g1 ++ s.op.str ++ g2)) h2 (fun _ => rfl)
      (fun _ => rfl) hu hv hmid p1 q1 p2 q2
    have hlast : off + (u ++ (g1 ++ s.op.str ++ g2) ++ v).length
        = off + u.length + (g1 ++ s.op.str ++ g2).length + v.length := by
      simp only [List.length_append]; omega
    have tw := fun p1 q1 p2 q2 p q => (t p1 q1 p2 q2).wrap (by simp [hu]) p q
    simp only [hlast] at tw
    unfold BinSite.apply BinSite.applyCLogical BinSite.wrapText
    simp only [hc, if_true, hk, hl, hr, hsp, wrapCall]
    cases ht : o.track
    · refine cast ?_ (tw [.txt (s.fnName l o.optimise ++ t!"_lhs" ++ t!"(")]
        [.txt t!", ", .id k, .txt t!")"] [.txt (s.fnName l o.optimise ++ t!"_rhs" ++ t!"(")]
        [.txt t!", ", .id k, .txt t!")"] [.txt (s.fnName l o.optimise ++ t!"_outer" ++ t!"(")]
        [.txt t!", ", .id k, .txt t!")"])
      simp [renderPieces, Piece.render, callText]
    · have h3 := (tw [] [] [] [] [.txt (s.fnName l o.optimise ++ t!"_outer" ++ t!"(")]
        [.txt t!", ", .id k, .txt t!")"]).congr (B := E1 ++ E2 ++
          [.before off [.txt (s.fnName l o.optimise ++ t!"_outer" ++ t!"(")],
           .after (off + u.length + (g1 ++ s.op.str ++ g2).length + v.length)
            [.txt t!", ", .id k, .txt t!")"]]) fun p => by
          constructor
          · simp [befores_append, befores_cons, Edit.beforeAt, renderPieces]
          · simp [afters, Edit.afterAt, renderPieces]
          · simp [Dredd.replacements, Edit.replaceAt]
          · simp [removed, Edit.removesAt]
      refine cast ?_ h3
      simp [renderPieces, Piece.render, callText]
  · have hM := ((Turns.nil (off + u.length) g1).append
      (Turns.replace (off + u.length + g1.length) s.op.str t!"," s.op.str_ne) (.inl rfl)).append
      (Turns.nil _ g2) (.inr rfl)
    have t := fun p1 q1 p2 q2 => h1.two hM h2 (fun _ => by simp [befores, Edit.beforeAt])
      (fun _ => by simp [afters, Edit.afterAt]) hu hv hmid p1 q1 p2 q2
    simp only [List.nil_append, List.append_nil, List.singleton_append] at t
    unfold BinSite.apply BinSite.wrapText
    rw [if_neg hc, if_neg hc]
    unfold BinSite.replaceOperator
    simp only [hk, hl, hr, hop]
    cases hcpp : l.cpp
    · cases ha : s.op.isAssign <;>
      (refine cast (congrArg _ ?_) (t _ _ _ _)
       simp [renderPieces, Piece.render, callText, addr])
    · generalize s.lhs.sideEffects = b1
      generalize (s.op.isLogical || s.rhs.sideEffects) = b2
      cases b1 <;> cases b2 <;>
      (refine cast (congrArg _ ?_) (t _ _ _ _)
       simp [renderPieces, Piece.render, callText, thunk, lambdaPrefix, lambdaSuffix])


theorem editsFrom_snoc (l : Lang) (o : Options) (first k : Nat) (ms : List Mutation)
    (m : Mutation) :
    editsFrom l o first (first + k) (ms ++ [m])
      = editsFrom l o first (first + k) ms
        ++ (m.apply l o first (first + (k + countAll l o.optimise ms))).edits := by
  simp [editsFrom_append, editsFrom, Nat.add_assoc]

mutual
theorem Lay.src_ne : (x : Lay) → x.Apart → x.src ≠ []
  | .text _, h => h
  | .const _ _, h => h
  | .expr _ body, h => Lay.srcL_ne body h.1 h.2.2
  | .bin s lhs g1 g2 rhs, h => by simp [Lay.src, s.op.str_ne]
  | .pre s body, h => by simp [Lay.src, s.op.str_ne]
  | .post s body, h => by simp [Lay.src, s.op.str_ne]
  | .stmt _ body _, h => by simp [Lay.src, Lay.srcL_ne body h.1 h.2.2]

theorem Lay.srcL_ne : (xs : List Lay) → xs ≠ [] → Lay.ApartL xs → Lay.srcL xs ≠ []
  | [], h, _ => absurd rfl h
  | x :: _, _, h => by simp [Lay.srcL, Lay.src_ne x h.1]
end

/-- The edits made for a piece. -/
def Lay.edits (l : Lang) (o : Options) (first k off : Nat) (x : Lay) : List Edit :=
  editsFrom l o first (first + k) x.muts ++ constEdits (x.consts off)

def Lay.editsL (l : Lang) (o : Options) (first k off : Nat) (xs : List Lay) : List Edit :=
  editsFrom l o first (first + k) (Lay.mutsL xs) ++ constEdits (Lay.constsL off xs)

theorem Lay.plain (l : Lang) (o : Options) (first k off : Nat) (x : Lay) (h : x.isNode = false)
    (p : Nat) : befores (x.edits l o first k off) p = [] ∧ afters (x.edits l o first k off) p = [] := by
  cases x <;> simp_all [Lay.isNode, Lay.edits, Lay.muts, Lay.consts, editsFrom]
  exact ⟨rfl, rfl⟩

theorem Within.repl_or {A W : List Edit} {C : List ConstRewrite} {o n : Nat}
    (h : Within (A ++ constEdits C) o n)
    (hW : ∀ p, replacements W p = [] ∨ p < o ∨ o + n ≤ p) (p : Nat) :
    replacements W p = [] ∨ replacements (constEdits C) p = [] := by
  rcases hW p with hp | hp
  · exact .inl hp
  · have := h.rep p hp
    rw [replacements_append, List.append_eq_nil_iff] at this
    exact .inr this.2

theorem ExprSite.edits_rep (s : ExprSite) (l : Lang) (o : Options) (k p : Nat) :
    replacements (s.edits l o k) p = [] := by
  simp [ExprSite.edits, Dredd.replacements, Edit.replaceAt]

theorem StmtSite.edits_rep (s : StmtSite) (o : Options) (k p : Nat) :
    replacements (s.edits o k) p = [] := by
  unfold StmtSite.edits
  split <;> simp [Dredd.replacements, Edit.replaceAt]

theorem UnSite.edits_rep (s : UnSite) (l : Lang) (o : Options) (k p : Nat) :
    Dredd.replacements (s.edits l o k) p = [] := by
  cases h : s.opOff <;>
    simp [UnSite.edits, replaceSymbol, h, Dredd.replacements, Edit.replaceAt]

theorem BinSite.edits_rep (s : BinSite) (l : Lang) (o : Options) (first id p : Nat)
    (h : s.opOff ≠ some p) : Dredd.replacements (s.apply l o first id).edits p = [] := by
  unfold BinSite.apply
  split
  · unfold BinSite.applyCLogical wrapCall
    dsimp only
    split <;> simp [Dredd.replacements, Edit.replaceAt]
  · cases h' : s.opOff with
    | none => simp [BinSite.replaceOperator, replaceSymbol, h', Dredd.replacements, Edit.replaceAt]
    | some q =>
      have : q ≠ p := fun hq => h (by rw [h', hq])
      simp [BinSite.replaceOperator, replaceSymbol, h', Dredd.replacements, Edit.replaceAt, this]

mutual
theorem Lay.turns (l : Lang) (o : Options) (first : Nat) : (x : Lay) → (off k : Nat) →
    x.Fits off → x.Apart → Turns (x.edits l o first k off) off x.src (x.out l o k)
  | .text t, off, k, _, _ => by
    simpa [Lay.edits, Lay.muts, Lay.consts, editsFrom, Lay.src, Lay.out] using Turns.nil off t
  | .const old v, off, k, _, ha => by
    have := Turns.replace off old (natDec v) ha
    simpa [Lay.edits, Lay.muts, Lay.consts, constEdits, editsFrom, Lay.src, Lay.out] using this
  | .expr s body, off, k, hf, ha => by
    have ih := Lay.turnsL l o first body off k hf.2 ha.2.1 ha.2.2
    have t := s.turns l o (k + countAll l o.optimise (Lay.mutsL body)) ih
      (Lay.srcL_ne body ha.1 ha.2.2) hf.1
    refine t.congr fun p => ?_
    simp only [Lay.edits, Lay.muts, Lay.consts, editsFrom_snoc, Mutation.apply, ExprSite.apply,
      Nat.add_sub_cancel_left]
    exact sameAt_insert (fun p => .inl (s.edits_rep l o _ p)) p
  | .stmt s body ext, off, k, hf, ha => by
    have ih := Lay.turnsL l o first body off k hf.2.2 ha.2.1 ha.2.2
    have ih' := ih.append (Turns.nil _ ext) (.inr rfl)
    rw [List.append_nil] at ih'
    have hne := Lay.srcL_ne body ha.1 ha.2.2
    have t := s.turns o (k + countAll l o.optimise (Lay.mutsL body)) ih' (by simp [hne])
      (by rw [hf.1]) (by rw [hf.2.1, List.length_append]; omega)
    refine t.congr fun p => ?_
    simp only [Lay.edits, Lay.muts, Lay.consts, editsFrom_snoc, Mutation.apply, StmtSite.apply,
      Nat.add_sub_cancel_left]
    exact sameAt_insert (fun p => .inl (s.edits_rep o _ p)) p
  | .pre s body, off, k, hf, ha => by
    have ih := Lay.turnsL l o first body (off + s.op.str.length) k hf.2.2 ha.1 ha.2
    have t := s.turns_pre l o (k + countAll l o.optimise (Lay.mutsL body)) ih hf.1 hf.2.1
    refine t.congr fun p => ?_
    simp only [Lay.edits, Lay.muts, Lay.consts, editsFrom_snoc, Mutation.apply, UnSite.apply,
      Nat.add_sub_cancel_left]
    exact sameAt_insert (fun p => .inl (s.edits_rep l o _ p)) p
  | .post s body, off, k, hf, ha => by
    have ih := Lay.turnsL l o first body off k hf.2.2 ha.1 ha.2
    have t := s.turns_post l o (k + countAll l o.optimise (Lay.mutsL body)) ih hf.1 hf.2.1
    refine t.congr fun p => ?_
    simp only [Lay.edits, Lay.muts, Lay.consts, editsFrom_snoc, Mutation.apply, UnSite.apply,
      Nat.add_sub_cancel_left]
    exact sameAt_insert (fun p => .inl (s.edits_rep l o _ p)) p
  | .bin s lhs g1 g2 rhs, off, k, hf, ha => by
    obtain ⟨hl, hop, hr, hsp, hfl, hfr⟩ := hf
    obtain ⟨nl, nr, sl, sr, al, ar⟩ := ha
    have ihl := Lay.turnsL l o first lhs off k hfl sl al
    have ihr := Lay.turnsL l o first rhs _ (k + countAll l o.optimise (Lay.mutsL lhs)) hfr sr ar
    have t := s.turns l o first
      (k + countAll l o.optimise (Lay.mutsL lhs) + countAll l o.optimise (Lay.mutsL rhs))
      ihl ihr (Lay.srcL_ne lhs nl al) (Lay.srcL_ne rhs nr ar) hl hop hr hsp
    refine t.congr fun p => ?_
    have hpos : 0 < s.op.str.length := List.length_pos_iff.2 s.op.str_ne
    have w := sameAt_parts ihl.within ihr.within (by omega)
    have w' : ∀ p, SameAt
        (Lay.editsL l o first k off lhs ++ Lay.editsL l o first
          (k + countAll l o.optimise (Lay.mutsL lhs)) (off + (Lay.srcL lhs).length + g1.length +
            s.op.str.length + g2.length) rhs ++ (s.apply l o first (first + (k +
              countAll l o.optimise (Lay.mutsL lhs) + countAll l o.optimise (Lay.mutsL rhs)))).edits)
        (editsFrom l o first (first + k) (Lay.mutsL lhs) ++ editsFrom l o first
          (first + (k + countAll l o.optimise (Lay.mutsL lhs))) (Lay.mutsL rhs) ++
          constEdits (Lay.constsL off lhs ++ Lay.constsL (off + (Lay.srcL lhs).length + g1.length +
            s.op.str.length + g2.length) rhs) ++ (s.apply l o first (first + (k +
              countAll l o.optimise (Lay.mutsL lhs) + countAll l o.optimise (Lay.mutsL rhs)))).edits)
        p := by
      intro p
      have := w p
      constructor
      · rw [befores_append, befores_append _ (s.apply l o first _).edits, constEdits_append]
        exact congrArg _ this.bef
      · rw [afters_append, afters_append _ (s.apply l o first _).edits, constEdits_append]
        exact congrArg (· ++ _) this.aft
      · rw [replacements_append, replacements_append _ (s.apply l o first _).edits,
          constEdits_append]
        exact congrArg (· ++ _) this.rep
      · rw [removed_append, removed_append _ (s.apply l o first _).edits, constEdits_append]
        exact congrArg (· || _) this.rem
    have w1 := w' p
    have w2 := sameAt_insert
      (A := editsFrom l o first (first + k) (Lay.mutsL lhs) ++ editsFrom l o first
          (first + (k + countAll l o.optimise (Lay.mutsL lhs))) (Lay.mutsL rhs))
      (C := Lay.constsL off lhs ++ Lay.constsL (off + (Lay.srcL lhs).length + g1.length +
            s.op.str.length + g2.length) rhs)
      (W := (s.apply l o first (first + (k + countAll l o.optimise (Lay.mutsL lhs) +
        countAll l o.optimise (Lay.mutsL rhs)))).edits) (fun p => by
          by_cases h : s.opOff = some p
          · right
            rw [show s.opOff = some _ from hop, Option.some.injEq] at h
            have e1 := ihl.within.rep p (.inr (by omega))
            have e2 := ihr.within.rep p (.inl (by omega))
            simp only [Lay.editsL, replacements_append, List.append_eq_nil_iff] at e1 e2
            simp [replacements_append, e1, e2]
          · exact .inl (s.edits_rep l o first _ p h)) p
    simp only [Lay.edits, Lay.muts, Lay.consts, editsFrom_append, editsFrom, List.append_nil,
      Mutation.apply, countAll_append]
    rw [show ∀ a b, first + k + (a + b) = first + (k + a + b) by intros; omega,
      show ∀ a, first + k + a = first + (k + a) by intros; omega]
    exact ⟨w1.bef.trans w2.bef, w1.aft.trans w2.aft, w1.rep.trans w2.rep, w1.rem.trans w2.rem⟩

theorem Lay.turnsL (l : Lang) (o : Options) (first : Nat) : (xs : List Lay) → (off k : Nat) →
    Lay.FitsL off xs → Lay.spaced xs → Lay.ApartL xs →
    Turns (Lay.editsL l o first k off xs) off (Lay.srcL xs) (Lay.outL l o k xs)
  | [], off, k, _, _, _ => Turns.nil off []
  | x :: xs, off, k, hf, hs, ha => by
    have ih := Lay.turns l o first x off k hf.1 ha.1
    have hs' : Lay.spaced xs := by
      cases xs with
      | nil => rfl
      | cons y ys => simp only [Lay.spaced, Bool.and_eq_true] at hs; exact hs.2
    have ihs := Lay.turnsL l o first xs (off + x.src.length) (k + countAll l o.optimise x.muts)
      hf.2 hs' ha.2
    have t := ih.append ihs ?_
    · refine t.congr fun p => ?_
      have := sameAt_parts ih.within ihs.within (Nat.le_refl _) p
      simp only [Lay.editsL, Lay.mutsL, Lay.constsL, editsFrom_append, constEdits_append]
      rw [Nat.add_assoc first k]
      exact this
    · cases hx : x.isNode with
      | false => exact .inl (Lay.plain l o first k off x hx _).2
      | true =>
        right
        cases xs with
        | nil => rfl
        | cons y ys =>
          simp only [Lay.spaced, hx, Bool.true_and, Bool.and_eq_true, Bool.not_eq_true'] at hs
          have iy := Lay.turns l o first y (off + x.src.length) (k + countAll l o.optimise x.muts)
            hf.2.1 ha.2.1
          have hy : 0 < y.src.length := List.length_pos_iff.2 (Lay.src_ne y ha.2.1)
          have iys := Lay.turnsL l o first ys (off + x.src.length + y.src.length)
            (k + countAll l o.optimise x.muts + countAll l o.optimise y.muts) hf.2.2
            (by
              cases ys with
              | nil => rfl
              | cons z zs => simp only [Lay.spaced, Bool.and_eq_true] at hs; exact hs.2.2) ha.2.2
          have := (sameAt_parts iy.within iys.within (Nat.le_refl _) (off + x.src.length)).bef
          simp only [Lay.editsL, Lay.mutsL, Lay.constsL, editsFrom_append, constEdits_append]
          rw [Nat.add_assoc first]
          refine this.symm.trans ?_
          rw [befores_append]
          exact List.append_eq_nil_iff.2
            ⟨iys.within.bef (off + x.src.length) (.inl (by omega)),
              (Lay.plain l o first (k + countAll l o.optimise x.muts) (off + x.src.length) y
                hs.1 (off + x.src.length)).1⟩
end

end Dredd
