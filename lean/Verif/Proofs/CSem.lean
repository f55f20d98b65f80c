/-
The meaning of inserted phrases (C63).
-/
import Verif.Spec.CSem
import Verif.Proofs.Grammar
import Verif.Props.C59

namespace Dredd

variable {S T V D R : Type}

/-! ### Trees -/

theorem Tree.meanL_append (K : Sem T V R) (a b : List Tree) :
    Tree.meanL K (a ++ b) = (Tree.meanL K a).bind fun x => (Tree.meanL K b).map (x ++ ·) := by
  induction a with
  | nil =>
    simp only [List.nil_append, Tree.meanL, Option.bind_some]
    cases Tree.meanL K b <;> rfl
  | cons k ks ih =>
    simp only [List.cons_append, Tree.meanL, ih]
    cases k.mean K with
    | none => rfl
    | some d =>
      cases Tree.meanL K ks with
      | none => rfl
      | some ds => cases Tree.meanL K b <;> rfl

theorem Tree.meanL_append_some {K : Sem T V R} {a b : List Tree} {x y : List (Den T V R)}
    (ha : Tree.meanL K a = some x) (hb : Tree.meanL K b = some y) :
    Tree.meanL K (a ++ b) = some (x ++ y) := by
  rw [Tree.meanL_append, ha, hb]
  rfl

theorem Tree.meanL_cons_some {K : Sem T V R} {t : Tree} {b : List Tree} {x : Den T V R}
    {y : List (Den T V R)} (ha : t.mean K = some x) (hb : Tree.meanL K b = some y) :
    Tree.meanL K (t :: b) = some (x :: y) := by
  simp [Tree.meanL, ha, hb]

theorem Tree.meanL_one {K : Sem T V R} {t : Tree} {x : Den T V R} (h : t.mean K = some x) :
    Tree.meanL K [t] = some [x] := Tree.meanL_cons_some h rfl

theorem Tree.node_mean {K : Sem T V R} {p : Phrase} {ks : List Tree} {ds : List (Den T V R)} {d}
    (h : Tree.meanL K ks = some ds) (hn : K.node p ds = some d) : (Tree.node p ks).mean K = some d := by
  simp [Tree.mean, h, hn]

theorem Tree.meanL_toks (K : Sem T V R) (ts : List Text) :
    Tree.meanL K (ts.map .tok) = some (ts.map .tok) := by
  induction ts with
  | nil => rfl
  | cons t ts ih => exact Tree.meanL_cons_some rfl ih

theorem Tree.meanL_comma {K : Sem T V R} {ts : List Tree} {ds : List (Den T V R)}
    (h : Tree.meanL K ts = some ds) :
    Tree.meanL K (commaSep (.tok t!",") ts) = some (commaSep (.tok t!",") ds) := by
  induction ts generalizing ds with
  | nil => cases h; rfl
  | cons t ts ih =>
    simp only [Tree.meanL, Option.bind_eq_some_iff, Option.map_eq_some_iff] at h
    obtain ⟨d, hd, ds', hds, rfl⟩ := h
    have := ih hds
    cases ts with
    | nil =>
      cases hds
      exact Tree.meanL_one hd
    | cons u us =>
      simp only [Tree.meanL, Option.bind_eq_some_iff, Option.map_eq_some_iff] at hds
      obtain ⟨e, he, es, hes, rfl⟩ := hds
      exact Tree.meanL_cons_some hd (Tree.meanL_cons_some rfl this)

/-- One meaning comes from one tree. -/
theorem Tree.meanL_single {K : Sem T V R} {ts : List Tree} {d : Den T V R}
    (h : Tree.meanL K ts = some [d]) : ∃ t, ts = [t] ∧ t.mean K = some d := by
  cases ts with
  | nil => cases h
  | cons t ts =>
    simp only [Tree.meanL, Option.bind_eq_some_iff, Option.map_eq_some_iff] at h
    obtain ⟨d', hd, ds, hds, he⟩ := h
    cases he
    cases ts with
    | nil => exact ⟨t, rfl, hd⟩
    | cons u us =>
      simp only [Tree.meanL, Option.bind_eq_some_iff, Option.map_eq_some_iff] at hds
      obtain ⟨_, _, _, _, he⟩ := hds
      cases he

theorem Tree.meanL_length {K : Sem T V R} {ts : List Tree} {ds : List (Den T V R)}
    (h : Tree.meanL K ts = some ds) : ds.length = ts.length := by
  induction ts generalizing ds with
  | nil => cases h; rfl
  | cons t ts ih =>
    simp only [Tree.meanL, Option.bind_eq_some_iff, Option.map_eq_some_iff] at h
    obtain ⟨d', hd, ds', hds, rfl⟩ := h
    simp [ih hds]

/-! ### Statements in a row -/

/-- The same, but for statements that are divided. -/
inductive Splits : List (Den T V R) → List (Den T V R) → Prop
  | nil : Splits [] []
  | cons (d) {es ds} : Splits es ds → Splits (d :: es) (d :: ds)
  | split (c c') {es ds} : Splits es (.stm c' :: ds) → Splits (.stm c :: es) (.stm (c.seq c') :: ds)

theorem Splits.refl (ds : List (Den T V R)) : Splits ds ds := by
  induction ds with
  | nil => exact .nil
  | cons d ds ih => exact .cons d ih

theorem Splits.append {a b c d : List (Den T V R)} (h : Splits a b) (h' : Splits c d) :
    Splits (a ++ c) (b ++ d) := by
  induction h with
  | nil => exact h'
  | cons d _ ih => exact .cons d ih
  | split c c' _ ih => exact .split c c' ih

/-- What is not a statement is not divided. -/
theorem Splits.single {es : List (Den T V R)} {d : Den T V R} (h : Splits es [d])
    (hd : ∀ c, d ≠ .stm c) : es = [d] := by
  cases h with
  | cons _ h => cases h; rfl
  | split c c' h => exact absurd rfl (hd _)

theorem Splits.one {e d : Den T V R} (h : Splits [e] [d]) : e = d := by
  cases h with
  | cons _ h => rfl
  | split c c' h => cases h

theorem Splits.node {K : Sem (S × D) V R} {M : Machine S V} {dev : Device D} {fs : List CFn} {cpp : Bool}
    (hK : K.Has M dev fs cpp) (p : Phrase) {es ds : List (Den (S × D) V R)} (h : Splits es ds) :
    ∀ as, K.node p (as ++ es) = K.node p (as ++ ds) := by
  induction h with
  | nil => intro as; rfl
  | cons d _ ih =>
    intro as
    have := ih (as ++ [d])
    simpa using this
  | split c c' h ih =>
    rename_i es ds
    intro as
    have := ih (as ++ [.stm c])
    simp only [List.append_assoc, List.cons_append, List.nil_append] at this
    rw [this]
    have := hK.item p as ds c c'
    simpa using this

/-! ### Computations -/

theorem Comp.next_pure {α : Type} {c : Comp T α} {s : T} {r r1 : Res T α} (h1 : c s r1)
    (h2 : Comp.next Comp.pure r1 r) : c s r := by
  cases r1 <;> simp only [Comp.next, Comp.pure] at h2 <;> exact h2 ▸ h1

theorem Code.ext' {a b : Code T V} (h1 : a.labels = b.labels) (h2 : ∀ e, a.run e = b.run e) : a = b := by
  obtain ⟨la, ra, oa⟩ := a
  obtain ⟨lb, rb, ob⟩ := b
  obtain rfl : la = lb := h1
  obtain rfl : ra = rb := funext h2
  rfl

theorem andThen_normal (c : Comp T (Ctl V)) : andThen c (.pure .normal) = c := by
  unfold andThen
  refine (congrArg (Comp.bind c) (funext fun x => ?_)).trans (Comp.bind_pure c)
  cases x <;> rfl

theorem Code.plain_none (c : Comp T (Ctl V)) : (Code.plain c).run none = c := rfl

theorem Code.seq_skip (c : Code T V) : c.seq .skip = c := by
  refine Code.ext' (by simp [Code.seq, Code.build, Code.skip, Code.plain]) fun e => ?_
  cases e with
  | none => exact andThen_normal _
  | some l =>
    simp only [Code.seq, Code.build, Code.skip, Code.plain, List.append_nil, andThen_normal]
    split
    · rfl
    · rename_i h
      exact (c.out l h).symm

theorem seqAll_one (c : Code T V) : seqAll [c] = c := c.seq_skip

theorem andThen_bind {α : Type} (a : Comp T α) (c : Comp T (Ctl V)) :
    andThen (Comp.bind a fun _ => .pure .normal) c = Comp.bind a fun _ => c := by
  unfold andThen
  rw [Comp.bind_assoc]
  congr 1
  funext x
  rw [Comp.pure_bind]

theorem Code.plain_seq {α : Type} (a : Comp T α) (c : Code T V) :
    (Code.plain (Comp.bind a fun _ => .pure .normal)).seq c = c.atStart fun x => Comp.bind a fun _ => x := by
  refine Code.ext' rfl fun e => ?_
  cases e with
  | none => exact andThen_bind _ _
  | some l => rfl

theorem ConvOnce.withState {M : Machine S V} (h : M.ConvOnce) : (M.withState D).ConvOnce := by
  intro ty v s w s' h'
  simp only [Machine.withState, liftState, Option.map_eq_some_iff] at h' ⊢
  obtain ⟨⟨a, t⟩, h1, h2⟩ := h'
  cases h2
  exact ⟨_, h _ _ _ _ _ h1, rfl⟩

theorem Comp.lift_twice {N : Machine T V} (h : N.ConvOnce) (ty : Text) (v : V) :
    Comp.bind (.lift (N.conv ty v)) (fun w => .lift (N.conv ty w)) = Comp.lift (N.conv ty v) := by
  refine Comp.ext fun s r => ?_
  cases hc : N.conv ty v s with
  | none => simp [Comp.bind, Comp.lift, hc, Comp.next]
  | some x =>
    obtain ⟨w, s'⟩ := x
    simp [Comp.bind, Comp.lift, hc, Comp.next, h _ _ _ _ _ hc]

theorem Comp.to_to {N : Machine T V} (h : N.ConvOnce) (ty : Text) (c : Comp T V) :
    (c.to N ty).to N ty = c.to N ty := by
  unfold Comp.to
  rw [Comp.bind_assoc]
  congr 1
  funext v
  exact Comp.lift_twice h ty v

theorem Comp.as_as {N : Machine T V} (h : N.ConvOnce) (ty : Text) (c : Comp T V) :
    (c.as N ty).as N ty = c.as N ty := by
  unfold Comp.as
  split
  · rfl
  · exact Comp.to_to h ty c

/-- Returning an expression from a lambda. -/
theorem result_ret (N : Machine T V) (ty : Text) (c : Comp T V) :
    Comp.bind (Comp.bind c fun v => .pure (.return_ (some v))) (Ctl.result N ty) = c.as N ty := by
  rw [Comp.bind_assoc]
  simp only [Comp.pure_bind, Ctl.result, Comp.as]
  split
  · exact Comp.bind_pure c
  · simp only [Comp.to, Comp.pure_bind]

/-- Converting the result of a call again changes nothing. -/
theorem runStmts_to {M : Machine S V} (h : M.ConvOnce) (dev : Device D) (ty : Text)
    (pass : Text → Option Pass) (arg : Text → Comp (S × D) V) (id : Nat) (ss : List CStmt) :
    (runStmts M dev ty pass arg id ss).to (M.withState D) ty = runStmts M dev ty pass arg id ss := by
  have hw := ConvOnce.withState (D := D) h
  have hr : ∀ e : CExpr, (e.returned (M.withState D) ty pass arg).to (M.withState D) ty =
      e.returned (M.withState D) ty pass arg := fun e => Comp.to_to hw ty _
  induction ss with
  | nil => exact Comp.ext fun s r => by simp [runStmts, Comp.to, Comp.bind, Comp.ub, Comp.next]
  | cons s ss ih =>
    cases s with
    | ifReturn c e =>
      simp only [runStmts, Comp.to] at ih ⊢
      rw [Comp.bind_assoc]
      congr 1
      funext b
      split
      · exact hr e
      · exact ih
    | return_ e => exact hr e
    | expr e =>
      simp only [runStmts, Comp.to] at ih ⊢
      rw [Comp.bind_assoc]
      congr 1
      funext b
      exact ih

theorem passing_to {N : Machine T V} {ty : Text} (ps : List CParam) (cs : List (Comp T V))
    {body : (Text → Comp T V) → Comp T V} (h : ∀ a, (body a).to N ty = body a) :
    (passing ps cs body).to N ty = passing ps cs body := by
  have hub : (Comp.ub : Comp T V).to N ty = Comp.ub :=
    Comp.ext fun s r => by simp [Comp.to, Comp.bind, Comp.ub, Comp.next]
  have hb : ∀ {α : Type} (c : Comp T α) (k : α → Comp T V), (∀ v, (k v).to N ty = k v) →
      (Comp.bind c k).to N ty = Comp.bind c k := by
    intro α c k hk
    simp only [Comp.to] at hk ⊢
    rw [Comp.bind_assoc]
    congr 1
    funext v
    exact hk v
  unfold passing
  split
  · split
    · exact h _
    · exact hb _ _ fun v => h _
  · split
    · exact h _
    · exact hb _ _ fun v => h _
    · exact hb _ _ fun v => h _
    · exact hb _ _ fun v => h _
  · exact hub

theorem CFn.call_to {M : Machine S V} (h : M.ConvOnce) (f : CFn) (dev : Device D) (id : Nat)
    (cs : List (Comp (S × D) V)) :
    (f.call M dev id cs).to (M.withState D) (typeText f.resTy) = f.call M dev id cs := by
  have hub : (Comp.ub : Comp (S × D) V).to (M.withState D) (typeText f.resTy) = Comp.ub :=
    Comp.ext fun s r => by simp [Comp.to, Comp.bind, Comp.ub, Comp.next]
  unfold CFn.call
  split
  · split
    · exact passing_to _ _ fun a => runStmts_to h _ _ _ _ _ _
    · exact hub
  · exact hub

/-- The result of a logical operator is an `int`. -/
theorem logical_int {M : Machine S V} {l : Lang} (h : M.IntTruth l) {op : BOp} (hl : op.isLogical = true)
    (c1 c2 : Comp (S × D) V) :
    ((M.withState D).evalBin op c1 c2).to (M.withState D) (BTy.int.name l) =
      (M.withState D).evalBin op c1 c2 := by
  have hp : ∀ b, (Comp.pure (M.ofBool b) : Comp (S × D) V).to (M.withState D) (BTy.int.name l) =
      Comp.pure (M.ofBool b) := by
    intro b
    refine Comp.ext fun s r => ?_
    simp [Comp.to, Comp.bind, Comp.pure, Comp.next, Comp.lift, Machine.withState, liftState, h b s.1]
  simp only [Comp.to, Machine.evalBin, hl, if_true, Machine.logical] at hp ⊢
  rw [Comp.bind_assoc]
  congr 1
  funext v1
  rw [Comp.bind_assoc]
  congr 1
  funext b1
  split
  · exact hp b1
  · rw [Comp.bind_assoc]
    congr 1
    funext v2
    rw [Comp.bind_assoc]
    congr 1
    funext b2
    exact hp b2

/-! ### Inserted phrases -/

section
variable {K : Sem (S × D) V R} {M : Machine S V} {dev : Device D} {fs : List CFn} {cpp : Bool}
  (hK : K.Has M dev fs cpp)
include hK

theorem Tree.num_mean (n : Nat) : (Tree.num n).mean K = some (.num n) :=
  Tree.node_mean (ds := [.tok (natDec n)]) rfl (hK.num n)

theorem Tree.name_mean {x : Text} (h1 : t!"__dredd_" <+: x) (h2 : x.all wordChar = true) :
    (Tree.name x).mean K = some (.name x) :=
  Tree.node_mean (ds := [.tok x]) rfl (hK.name x h1 h2)

theorem Tree.paren_mean {t : Tree} {d} {x} (h : t.mean K = some d) (hx : d.asVal K.numVal = some x) :
    (Tree.paren t).mean K = some d :=
  Tree.node_mean (Tree.meanL_cons_some rfl (Tree.meanL_cons_some h rfl)) (hK.paren d x hx)

theorem Tree.addr_mean {t : Tree} {d ty c} (h : t.mean K = some d)
    (hx : d.asVal K.numVal = some (ty, c)) : (Tree.addr t).mean K = some (.addr c) :=
  Tree.node_mean (Tree.meanL_cons_some rfl (Tree.meanL_one (Tree.paren_mean hK h hx)))
    (hK.addr d ty c hx)

theorem Tree.type_mean {ty : Text} (h : (readDTy (tokens ty)).isSome) (hg : typeText (tokens ty) = ty) :
    (Tree.type ty).mean K = some (.type ty) := by
  have := hK.type (tokens ty) h
  rw [hg] at this
  exact Tree.node_mean (Tree.meanL_toks K _) this

theorem Tree.cast_mean (hc : cpp = true) {ty : Text} (ht : (readDTy (tokens ty)).isSome)
    (hg : typeText (tokens ty) = ty) {t : Tree} {d x} (h : t.mean K = some d)
    (hx : d.asVal K.numVal = some x) :
    (Tree.cast ty t).mean K = some (.val ty (x.2.as (M.withState D) ty)) :=
  Tree.node_mean (Tree.meanL_cons_some rfl (Tree.meanL_cons_some rfl (Tree.meanL_cons_some
    (Tree.type_mean hK ht hg) (Tree.meanL_cons_some rfl (Tree.meanL_cons_some rfl
      (Tree.meanL_cons_some h rfl)))))) (hK.cast hc ty d x hx)

theorem Tree.lambda_mean (hc : cpp = true) {ty : Text} (ht : (readDTy (tokens ty)).isSome)
    (hg : typeText (tokens ty) = ty) {t : Tree} {d x} (h : t.mean K = some d)
    (hx : d.asVal K.numVal = some x) :
    (Tree.lambda ty t).mean K = some (.fobj ty (x.2.as (M.withState D) ty)) := by
  have h1 : (Tree.node .unfinished [.tok t!"return", t]).mean K = _ :=
    Tree.node_mean (Tree.meanL_cons_some rfl (Tree.meanL_one h)) (hK.ret d x hx)
  have h2 : (Tree.semi (.node .unfinished [.tok t!"return", t])).mean K = _ :=
    Tree.node_mean (Tree.meanL_cons_some h1 rfl) (hK.stmSemi _)
  have h3 : (Tree.block [.semi (.node .unfinished [.tok t!"return", t])]).mean K = _ :=
    Tree.node_mean (Tree.meanL_cons_some rfl (Tree.meanL_cons_some h2 rfl)) (hK.block [_])
  rw [seqAll_one] at h3
  have := hK.lambda hc ty (.plain (Comp.bind x.2 fun v => .pure (.return_ (some v))))
  simp only [Code.plain_none, result_ret] at this
  exact Tree.node_mean (Tree.meanL_cons_some rfl (Tree.meanL_cons_some rfl (Tree.meanL_cons_some rfl
    (Tree.meanL_cons_some rfl (Tree.meanL_cons_some rfl (Tree.meanL_cons_some rfl
      (Tree.meanL_cons_some (Tree.type_mean hK ht hg) (Tree.meanL_one h3)))))))) this

theorem Tree.block_mean {ts : List Tree} {cs : List (Code (S × D) V)}
    (h : Tree.meanL K ts = some (cs.map .stm)) : (Tree.block ts).mean K = some (.stm (seqAll cs)) :=
  Tree.node_mean (Tree.meanL_append_some (Tree.meanL_append_some rfl h) rfl) (hK.block cs)

theorem Tree.guarded_mean {id : Nat} {ts : List Tree} {cs : List (Code (S × D) V)}
    (h : Tree.meanL K ts = some (cs.map .stm)) :
    (Tree.guarded t!"__dredd_enabled_mutation" id ts).mean K =
      some (.stm (.atStart (fun c => Comp.bind (onDevice (dev.query id)) fun b =>
        if !b then c else .pure .normal) (seqAll cs))) := by
  have h1 : (Tree.call t!"__dredd_enabled_mutation" [.num id]).mean K = _ :=
    Tree.node_mean (Tree.meanL_cons_some (Tree.name_mean hK ⟨_, rfl⟩ (by decide))
      (Tree.meanL_cons_some rfl (Tree.meanL_cons_some (Tree.num_mean hK id) rfl))) (hK.enabled id)
  have h2 : (Tree.node (.expr 15) [.tok t!"!", Tree.call t!"__dredd_enabled_mutation" [.num id]]).mean K = _ :=
    Tree.node_mean (Tree.meanL_cons_some rfl (Tree.meanL_one h1)) (hK.lnot _)
  have h3 : (Tree.guarded t!"__dredd_enabled_mutation" id ts).mean K = _ :=
    Tree.node_mean (Tree.meanL_cons_some rfl (Tree.meanL_cons_some rfl (Tree.meanL_cons_some h2
      (Tree.meanL_cons_some rfl (Tree.meanL_one (Tree.block_mean hK h)))))) (hK.ifs _ _)
  rw [h3]
  refine congrArg (fun c => some (Den.stm c)) (Code.ext' (by
    simp [Code.ite, Code.build, Code.atStart, Code.skip, Code.plain]) fun e => ?_)
  cases e with
  | none =>
    simp only [Code.ite, Code.build, Code.atStart, Code.skip, Code.plain, Comp.bind_assoc, Comp.pure_bind]
  | some l => 
    simp only [Code.ite, Code.build, Code.atStart, Code.skip, Code.plain, List.append_nil]
    split <;> simp_all

theorem Tree.record_mean (id n : Nat) :
    (Tree.semi (.call t!"__dredd_record_covered_mutants" [.num id, .num n])).mean K =
      some (.stm (.plain (Comp.bind (onDevice (dev.record id n)) fun _ => .pure .normal))) := by
  have h1 : (Tree.call t!"__dredd_record_covered_mutants" [.num id, .num n]).mean K = _ :=
    Tree.node_mean (Tree.meanL_cons_some (Tree.name_mean hK ⟨_, rfl⟩ (by decide))
      (Tree.meanL_cons_some rfl (Tree.meanL_cons_some (Tree.num_mean hK id)
        (Tree.meanL_cons_some rfl (Tree.meanL_cons_some (Tree.num_mean hK n) rfl))))) (hK.record id n)
  exact Tree.node_mean (Tree.meanL_cons_some h1 rfl) (hK.actStm _)

end

/-- What a parameter gets if its argument is `c`. -/
def Param.got (N : Machine T V) (p : Param) (c : Comp T V) : Comp T V :=
  if p.mode = .deref then c else c.as N p.ty

/-- The parameter as read. -/
def Param.read (p : Param) : CParam := ⟨tyToks p, p.arg.name⟩

/-- What the reader needs to know about a parameter. -/
structure Param.Fair (cpp : Bool) (p : Param) : Prop where
  shown : p.Shown
  good : goodTy p.ty = true
  passable : p.Passable cpp

theorem Den.asVal_kind {numVal : Nat → V} {d : Den T V R} {x} (h : d.asVal numVal = some x)
    (N : Machine T V) (q : CParam) (hq : (d.passTo N numVal q).isSome) : q.pass = .value := by
  cases d <;> first | cases h; done | skip
  all_goals
    unfold Den.passTo at hq
    cases hp : q.pass <;> simp_all

/-- The meaning of an argument. -/
theorem Param.pass_mean {K : Sem (S × D) V R} {M : Machine S V} {dev : Device D} {fs : List CFn}
    {cpp : Bool} (hK : K.Has M dev fs cpp) (hM : M.ConvOnce) {p : Param} (hp : p.Fair cpp) (b : Bool)
    {t : Tree} {d ty c} (h : t.mean K = some d) (hx : d.asVal K.numVal = some (ty, c)) :
    ∃ d', (p.pass b t).mean K = some d' ∧
      d'.passTo (M.withState D) K.numVal p.read = some (p.got (M.withState D) c) ∧
      ∀ q : CParam, (d'.passTo (M.withState D) K.numVal q).isSome → q.pass = p.read.pass := by
  have hpass : p.read.pass = p.mode.passed := p.shown_pass hp.shown hp.good
  have htext := tyToks_text p hp.good
  obtain ⟨-, -, hg⟩ := goodTy_toks hp.good
  cases hm : p.mode with
  | value =>
    refine ⟨d, by simpa [Param.pass, hm] using h, ?_, ?_⟩
    · simp only [Den.passTo, hpass, hm, ArgMode.passed, hx, Option.map_some, Param.got]
      simp [Param.read, htext, Param.tyText, hm]
    · intro q hq
      rw [hpass, hm]
      exact Den.asVal_kind hx _ q hq
  | deref =>
    refine ⟨.addr c, ?_, ?_, ?_⟩
    · simp only [Param.pass, hm]
      exact Tree.addr_mean hK h hx
    · simp [Den.passTo, hpass, hm, ArgMode.passed, Param.got]
    · intro q hq
      rw [hpass, hm]
      unfold Den.passTo at hq
      cases hp : q.pass <;> simp_all [Den.asVal, ArgMode.passed]
  | thunk =>
    obtain ⟨hc, ht⟩ := hp.passable hm
    refine ⟨.fobj p.ty (c.as (M.withState D) p.ty), ?_, ?_, ?_⟩
    · simp only [Param.pass, hm]
      cases b with
      | true => exact Tree.lambda_mean hK hc ht hg h hx
      | false =>
        have := Tree.lambda_mean hK hc ht hg (Tree.cast_mean hK hc ht hg h hx) (x := (p.ty, _)) rfl
        rw [Comp.as_as (ConvOnce.withState hM)] at this
        exact this
    · simp only [Den.passTo, hpass, hm, ArgMode.passed, Param.got]
      simp [Param.read, htext, Param.tyText, hm]
    · intro q hq
      rw [hpass, hm]
      unfold Den.passTo at hq
      cases hp : q.pass <;> simp_all [Den.asVal, ArgMode.passed]

/-- Trees that are expressions, and what they compute. -/
inductive Operands (K : Sem T V R) : List (Bool × Tree) → List (Comp T V) → Prop
  | nil : Operands K [] []
  | cons {a c as cs} : (∃ d ty, a.2.mean K = some d ∧ d.asVal K.numVal = some (ty, c)) →
    Operands K as cs → Operands K (a :: as) (c :: cs)

/-- The meaning of arguments. -/
theorem pass_all {K : Sem (S × D) V R} {M : Machine S V} {dev : Device D} {fs : List CFn}
    {cpp : Bool} (hK : K.Has M dev fs cpp) (hM : M.ConvOnce) {ps : List Param}
    (hp : ∀ p ∈ ps, p.Fair cpp) {as : List (Bool × Tree)} {cs : List (Comp (S × D) V)}
    (hl : ps.length = as.length)
    (h : Operands K as cs) :
    ∃ ds, Tree.meanL K ((ps.zip as).map fun (p, b, x) => p.pass b x) = some ds ∧
      passAll (M.withState D) K.numVal (ps.map Param.read) ds =
        some ((ps.zip cs).map fun (p, c) => p.got (M.withState D) c) ∧
      ∀ qs : List CParam, (passAll (M.withState D) K.numVal qs ds).isSome →
        qs.map CParam.pass = ps.map fun p => p.read.pass := by
  induction h generalizing ps with
  | nil =>
    cases ps with
    | nil =>
      refine ⟨[], rfl, rfl, fun qs hq => ?_⟩
      cases qs with
      | nil => rfl
      | cons => cases hq
    | cons => cases hl
  | cons h1 h2 ih =>
    rename_i a c as cs
    cases ps with
    | nil => cases hl
    | cons p ps =>
      obtain ⟨ds, e1, e2, e3⟩ := ih (fun q hq => hp q (List.mem_cons_of_mem _ hq)) (by simpa using hl)
      obtain ⟨d, ty, ha, hv⟩ := h1
      obtain ⟨d', f1, f2, f3⟩ := p.pass_mean hK hM (hp p List.mem_cons_self) a.1 ha hv
      refine ⟨d' :: ds, Tree.meanL_cons_some f1 e1, ?_, ?_⟩
      · simp only [List.map_cons, passAll, f2, e2, Option.bind_some, Option.map_some, List.zip_cons_cons]
      · intro qs hq
        cases qs with
        | nil => cases hq
        | cons q qs =>
          simp only [passAll] at hq
          cases hd : d'.passTo (M.withState D) K.numVal q with
          | none => simp [hd] at hq
          | some y =>
            simp only [hd, Option.bind_some, Option.isSome_map] at hq
            simp only [List.map_cons, e3 qs hq, f3 q (by simp [hd])]

/-- What the generated functions have to be for a function to be called. -/
def FnIn (fs : List CFn) (cpp : Bool) (f : MutFn) : Prop :=
  f.read ∈ fs ∧ ∀ g ∈ fs, g.name = f.name →
    (cpp = true → g.params.dropLast.map CParam.pass = f.params.map fun p => p.read.pass) → g = f.read

/-- The meaning of a call of a generated function. -/
theorem MutFn.call_mean {K : Sem (S × D) V R} {M : Machine S V} {dev : Device D} {fs : List CFn}
    {cpp : Bool} (hK : K.Has M dev fs cpp) (hM : M.ConvOnce) {f : MutFn} (hf : FnIn fs cpp f)
    (hpl : f.Plain) (hp : ∀ p ∈ f.params, p.Shown ∧ p.Passable cpp) (hn : t!"__dredd_" <+: f.name)
    {as : List (Bool × Tree)} {cs : List (Comp (S × D) V)} (hl : f.params.length = as.length)
    (h : Operands K as cs)
    (id : Nat) :
    (f.callTree as id).mean K = some (.val f.resTy (f.read.call M dev id
      ((f.params.zip cs).map fun (p, c) => p.got (M.withState D) c))) := by
  obtain ⟨ds, e1, e2, e3⟩ := pass_all hK hM (fun p h => ⟨(hp p h).1, hpl.tys p h, (hp p h).2⟩) hl h
  have hr : Resolves (M.withState D) K.numVal fs f.name ds f.read
      ((f.params.zip cs).map fun (p, c) => p.got (M.withState D) c) := by
    refine ⟨hf.1, rfl, ?_, fun g hg hgn hfit => hf.2 g hg hgn fun _ => e3 _ hfit⟩
    have : f.read.params.dropLast = f.params.map Param.read := by
      simp only [MutFn.read]
      rw [List.dropLast_concat]
      rfl
    rw [this]
    exact e2
  have := hK.call _ _ id _ _ hr
  rw [show typeText f.read.resTy = f.resTy from (goodTy_toks hpl.res).2.2] at this
  refine Tree.node_mean (Tree.meanL_append_some (Tree.meanL_append_some ?_ (Tree.meanL_comma
    (Tree.meanL_append_some e1 (Tree.meanL_one (Tree.num_mean hK id))))) rfl) this
  exact Tree.meanL_cons_some (Tree.name_mean hK hn (wordText_all hpl.nam)) rfl

/-! ### Points -/

theorem isRef_name (l : Lang) (t : BTy) : isRef (t.name l) = false :=
  (by decide : ∀ x ∈ [t!"bool", t!"_Bool", t!"char", t!"wchar_t",
    t!"unsigned char", t!"char8_t", t!"char16_t", t!"char32_t", t!"unsigned short", t!"unsigned int",
    t!"unsigned long", t!"unsigned long long", t!"unsigned __int128", t!"signed char", t!"short", t!"int",
    t!"long", t!"long long", t!"__int128", t!"__fp16", t!"float", t!"double", t!"long double",
    t!"_Float16", t!"__bf16", t!"__float128", t!"__ibm128"], isRef x = false) _ (name_mem l t)

theorem isRef_amp (t : Text) : isRef (t ++ t!"&") = true := by
  simp [isRef]

theorem Comp.as_name (N : Machine T V) (l : Lang) (t : BTy) (c : Comp T V) :
    c.as N (t.name l) = c.to N (t.name l) := by
  simp [Comp.as, isRef_name]

theorem Comp.as_amp (N : Machine T V) (t : Text) (c : Comp T V) : c.as N (t ++ t!"&") = c := by
  simp only [Comp.as, isRef_amp, if_true]

/-- What the operand is for the operator. -/
def Comp.operand (N : Machine T V) (l : Lang) (lv : Bool) (info : ExprInfo) (c : Comp T V) : Comp T V :=
  if lv then c else c.to N (info.ty.name l)

theorem operand_eval (I : Interp S T V) (calls : Nat → List V → Comp T V) (l : Lang) (lv : Bool)
    (info : ExprInfo) (e : Exp S V) :
    (operand l lv info e).eval I calls = (e.eval I calls).operand I.machine l lv info := by
  cases lv <;> rfl

theorem BinSite.got1 (s : BinSite) (l : Lang) (N : Machine T V) (c : Comp T V) :
    (⟨.arg1, s.lhsTyText l, s.mode1 l⟩ : Param).got N c = c.operand N l s.op.isAssign s.lhs := by
  unfold Param.got Comp.operand BinSite.lhsTyText BinSite.mode1
  simp only
  cases ha : s.op.isAssign <;> cases hc : l.cpp <;> cases s.lhs.sideEffects <;>
    simp only [Bool.and_true, Bool.and_false, Bool.not_true, Bool.not_false, Bool.true_and, Bool.false_and,
      Bool.false_eq_true, if_true, if_false, reduceCtorEq, Comp.as_name, Comp.as_amp]

theorem BinSite.got2 (s : BinSite) (l : Lang) (N : Machine T V) (c : Comp T V) :
    (⟨.arg2, s.rhs.ty.name l, s.mode2 l⟩ : Param).got N c = c.operand N l false s.rhs := by
  unfold Param.got Comp.operand BinSite.mode2
  simp only [Comp.as_name]
  split <;> simp

theorem cpp_as (N : Machine T V) (l : Lang) (e : ExprInfo) (c : Comp T V) :
    c.as N (cppTypeModifiers e (e.ty.name l)) = c.operand N l e.lvalue e := by
  unfold cppTypeModifiers Comp.operand
  split
  · rw [Comp.as_amp]
  · rw [Comp.as_name]

theorem UnSite.got (s : UnSite) (l : Lang) (h : (Mutation.un s).Readable l) (N : Machine T V)
    (c : Comp T V) :
    (⟨.arg, s.inputTy l, s.mode l⟩ : Param).got N c = c.operand N l s.sub.lvalue s.sub := by
  unfold Param.got UnSite.inputTy UnSite.mode
  cases hc : l.cpp with
  | true =>
    have := cpp_as N l s.sub c
    cases s.self.sideEffects <;> simpa using this
  | false =>
    have hl := (h.2 hc).1
    unfold Comp.operand cTypeModifiers
    cases hi : s.op.isIncDec <;> simp_all [Comp.as_name]

theorem ExprSite.got (s : ExprSite) (l : Lang) (N : Machine T V) (c : Comp T V) :
    (⟨.arg, s.inputTy l, s.mode l⟩ : Param).got N c = c.operand N l s.self.lvalue s.self := by
  unfold Param.got ExprSite.inputTy ExprSite.mode
  cases hc : l.cpp with
  | true =>
    have := cpp_as N l s.self c
    cases s.self.sideEffects <;> simpa using this
  | false =>
    unfold Comp.operand cTypeModifiers
    cases hi : s.self.lvalue <;> simp_all [Comp.as_name]

/-- The functions of a point are among those that are called. -/
def Mutation.In (fs : List CFn) (l : Lang) (o : Options) (m : Mutation) : Prop :=
  ∀ first id, ∀ fn ∈ (m.apply l o first id).decls, FnIn fs l.cpp fn

section
variable {K : Sem (S × D) V R} {M : Machine S V} {dev : Device D} {fs : List CFn} {l : Lang}
  (hK : K.Has M dev fs l.cpp) (hM : M.ConvOnce)
include hK hM

theorem BinSite.mean (s : BinSite) (o : Options) (h : s.op.fnName?.isSome = true)
    (hfs : (Mutation.bin s).In fs l o) (hc : (!l.cpp && s.op.isLogical) = false)
    {x y : Tree} {d e : Den (S × D) V R} {t1 t2 : Text} {c1 c2 : Comp (S × D) V}
    (hx : x.mean K = some d) (hd : d.asVal K.numVal = some (t1, c1))
    (hy : y.mean K = some e) (he : e.asVal K.numVal = some (t2, c2)) (id : Nat) :
    ((s.genFn l o id).callTree [(false, x), (false, y)] id).mean K =
      some (.val (s.resTyText l) (s.exec l o M dev id
        (c1.operand (M.withState D) l s.op.isAssign s.lhs) (c2.operand (M.withState D) l false s.rhs))) := by
  obtain ⟨h1, h2, h3⟩ := s.fn_plain l o id h
  have hmem : s.genFn l o id ∈ ((Mutation.bin s).apply l o 0 id).decls := by
    show _ ∈ (s.apply l o 0 id).decls
    unfold BinSite.apply
    rw [if_neg (by simp [hc])]
    simp
  rw [MutFn.call_mean hK hM (hfs 0 id _ hmem) h1 (fun p hp => ⟨h2 p hp, s.passable l o id p hp⟩)
    (by simpa [BinSite.genFn] using s.name_dredd l o.optimise [])
    (as := [(false, x), (false, y)]) (cs := [c1, c2]) rfl (.cons ⟨d, _, hx, hd⟩ (.cons ⟨e, _, hy, he⟩ .nil))]
  simp only [BinSite.genFn, List.zip_cons_cons, List.zip_nil_right, List.map_cons, List.map_nil,
    BinSite.got1, BinSite.got2]
  have := call2_read (s.genFn l o id) _ _ h1 rfl rfl rfl (h2 _ (by simp [BinSite.genFn]))
    (h2 _ (by simp [BinSite.genFn])) h3 M dev id (c1.operand (M.withState D) l s.op.isAssign s.lhs)
    (c2.operand (M.withState D) l false s.rhs)
  simp only [BinSite.exec, hc, Bool.false_eq_true, if_false]
  rw [← this]
  rfl

theorem UnSite.mean (s : UnSite) (o : Options) (h : (Mutation.un s).Readable l)
    (hfs : (Mutation.un s).In fs l o) {x : Tree} {d : Den (S × D) V R} {t1 : Text}
    {c : Comp (S × D) V} (hx : x.mean K = some d) (hd : d.asVal K.numVal = some (t1, c)) (b : Bool) (id : Nat) :
    ((s.genFn l o id).callTree [(b, x)] id).mean K =
      some (.val (s.resTyText l) (s.exec l o M dev id (c.operand (M.withState D) l s.sub.lvalue s.sub))) := by
  obtain ⟨h1, h2, h3⟩ := s.fn_plain l o id h
  rw [MutFn.call_mean hK hM (hfs 0 id _ (List.mem_singleton.mpr rfl)) h1
    (fun p hp => ⟨h2 p hp, s.passable l o id p hp⟩) (s.name_dredd l o.optimise)
    (as := [(b, x)]) (cs := [c]) rfl (.cons ⟨d, _, hx, hd⟩ .nil)]
  have hp : (s.genFn l o id).params = [⟨.arg, s.inputTy l, s.mode l⟩] := rfl
  rw [hp]
  simp only [List.zip_cons_cons, List.zip_nil_right, List.map_cons, List.map_nil, UnSite.got s l h]
  rw [call1_read (s.genFn l o id) _ h1 rfl rfl (h2 _ (by simp [UnSite.genFn])) h3]
  rfl

theorem ExprSite.mean (s : ExprSite) (o : Options) (h : (Mutation.expr s).Readable l)
    (hfs : (Mutation.expr s).In fs l o) {x : Tree} {d : Den (S × D) V R} {t1 : Text}
    {c : Comp (S × D) V} (hx : x.mean K = some d) (hd : d.asVal K.numVal = some (t1, c)) (b : Bool) (id : Nat) :
    ((s.genFn l o id).callTree [(b, x)] id).mean K =
      some (.val (s.self.ty.name l)
        (s.exec l o M dev id (c.operand (M.withState D) l s.self.lvalue s.self))) := by
  obtain ⟨h1, h2, h3⟩ := s.fn_plain l o id h
  rw [MutFn.call_mean hK hM (hfs 0 id _ (List.mem_singleton.mpr rfl)) h1
    (fun p hp => ⟨h2 p hp, s.passable l o id p hp⟩) (s.name_dredd l o.optimise)
    (as := [(b, x)]) (cs := [c]) rfl (.cons ⟨d, _, hx, hd⟩ .nil)]
  have hp : (s.genFn l o id).params = [⟨.arg, s.inputTy l, s.mode l⟩] := rfl
  rw [hp]
  simp only [List.zip_cons_cons, List.zip_nil_right, List.map_cons, List.map_nil, ExprSite.got]
  rw [call1_read (s.genFn l o id) _ h1 rfl rfl (h2 _ (by simp [ExprSite.genFn])) h3]
  rfl

/-- A call around a value in C. -/
theorem value_mean (s : BinSite) (o : Options) {f : MutFn}
    (hf : f = cLogicalLhsFn s l o ∨ f = cLogicalRhsFn s l o ∨ f = cLogicalOuterFn s l o)
    (hin : FnIn fs l.cpp f) {t : BTy} (hp : f.params = [⟨.arg, t.name l, .value⟩])
    {x : Tree} {d : Den (S × D) V R} {t1 : Text} {c : Comp (S × D) V}
    (hx : x.mean K = some d) (hd : d.asVal K.numVal = some (t1, c)) (id : Nat) :
    (f.callTree [(false, x)] id).mean K =
      some (.val f.resTy (f.call1 M dev id (c.to (M.withState D) (t.name l)))) := by
  obtain ⟨h1, h2, h3⟩ := cLogical_plain s l o f hf
  have hn : t!"__dredd_" <+: f.name := by
    rcases hf with rfl | rfl | rfl <;> exact s.name_dredd l o.optimise _
  rw [MutFn.call_mean hK hM hin h1 (fun p hm => ⟨h2 p hm, ?_⟩) hn
    (as := [(false, x)]) (cs := [c]) (by simp [hp]) (.cons ⟨d, _, hx, hd⟩ .nil)]
  · simp only [hp, List.zip_cons_cons, List.zip_nil_right, List.map_cons, List.map_nil]
    rw [call1_read f _ h1 hp rfl (h2 _ (by simp [hp])) h3]
    simp [Param.got, Comp.as_name]
  · rw [hp, List.mem_singleton] at hm
    rw [hm]
    intro h
    cases h

theorem BinSite.logical_mean (s : BinSite) (o : Options) (hT : M.IntTruth l)
    (hfs : (Mutation.bin s).In fs l o) (hcpp : l.cpp = false) (hl : s.op.isLogical = true)
    (hres : s.resTy = .int)
    {x y : Tree} {d e : Den (S × D) V R} {c1 c2 : Comp (S × D) V}
    (hx : x.mean K = some d) (hd : d.asVal K.numVal = some (s.lhs.ty.name l, c1))
    (hy : y.mean K = some e) (he : e.asVal K.numVal = some (s.rhs.ty.name l, c2)) (id : Nat) :
    ((cLogicalOuterFn s l o).callTree [(false,
      if o.track then .node (.expr s.op.levels.1) [x, .tok s.op.str, y]
      else .node (.expr s.op.levels.1) [(cLogicalLhsFn s l o).callTree [(false, x)] id, .tok s.op.str,
        (cLogicalRhsFn s l o).callTree [(false, y)] id])] id).mean K =
      some (.val (s.resTyText l) (s.exec l o M dev id
        (c1.operand (M.withState D) l false s.lhs) (c2.operand (M.withState D) l false s.rhs))) := by
  have hc : (!l.cpp && s.op.isLogical) = true := by simp [hcpp, hl]
  have hdecl : (s.apply l o 0 id).decls =
      (if o.track then [] else [cLogicalLhsFn s l o, cLogicalRhsFn s l o]) ++
        [cLogicalOuterFn s l o] := by
    unfold BinSite.apply
    rw [if_pos hc]
    unfold BinSite.applyCLogical
    cases o.track <;> rfl
  have hin : ∀ f ∈ (s.apply l o 0 id).decls, FnIn fs l.cpp f := hfs 0 id
  rw [hdecl] at hin
  have hr : s.resTyText l = s.resTy.name l := by simp [BinSite.resTyText, hcpp]
  have hop := hK.logical hcpp s.op hl
  have hint := logical_int (D := D) hT hl
  simp only [BinSite.exec, hc, if_true]
  cases ht : o.track with
  | true =>
    simp only [if_true]
    have h0 : (Tree.node (.expr s.op.levels.1) [x, .tok s.op.str, y]).mean K = _ :=
      Tree.node_mean (Tree.meanL_cons_some hx (Tree.meanL_cons_some rfl (Tree.meanL_one hy)))
        (hop d e _ _ _ _ hd he)
    rw [value_mean hK hM s o (.inr (.inr rfl)) (hin _ (by simp)) rfl h0 rfl, hres, hint, hr]
    simp only [Comp.operand, Bool.false_eq_true, if_false]
    rfl
  | false =>
    simp only [Bool.false_eq_true, if_false]
    have h1 := value_mean hK hM s o (.inl rfl) (hin _ (by simp [ht])) rfl hx hd id
    have h2 := value_mean hK hM s o (.inr (.inl rfl)) (hin _ (by simp [ht])) rfl hy he id
    have e1 : ((cLogicalLhsFn s l o).call1 M dev id (c1.to (M.withState D) (s.lhs.ty.name l))).to
        (M.withState D) (cLogicalLhsFn s l o).resTy =
        (cLogicalLhsFn s l o).call1 M dev id (c1.to (M.withState D) (s.lhs.ty.name l)) := by
      obtain ⟨p1, p2, p3⟩ := cLogical_plain s l o _ (.inl rfl)
      have := CFn.call_to hM (cLogicalLhsFn s l o).read dev id [c1.to (M.withState D) (s.lhs.ty.name l)]
      rw [call1_read _ _ p1 rfl rfl (p2 _ (by simp [cLogicalLhsFn])) p3] at this
      rwa [show typeText (cLogicalLhsFn s l o).read.resTy = _ from (goodTy_toks p1.res).2.2] at this
    have e2 : ((cLogicalRhsFn s l o).call1 M dev id (c2.to (M.withState D) (s.rhs.ty.name l))).to
        (M.withState D) (cLogicalRhsFn s l o).resTy =
        (cLogicalRhsFn s l o).call1 M dev id (c2.to (M.withState D) (s.rhs.ty.name l)) := by
      obtain ⟨p1, p2, p3⟩ := cLogical_plain s l o _ (.inr (.inl rfl))
      have := CFn.call_to hM (cLogicalRhsFn s l o).read dev id [c2.to (M.withState D) (s.rhs.ty.name l)]
      rw [call1_read _ _ p1 rfl rfl (p2 _ (by simp [cLogicalRhsFn])) p3] at this
      rwa [show typeText (cLogicalRhsFn s l o).read.resTy = _ from (goodTy_toks p1.res).2.2] at this
    have h0 : (Tree.node (.expr s.op.levels.1) [(cLogicalLhsFn s l o).callTree [(false, x)] id,
        .tok s.op.str, (cLogicalRhsFn s l o).callTree [(false, y)] id]).mean K = _ :=
      Tree.node_mean (Tree.meanL_cons_some h1 (Tree.meanL_cons_some rfl (Tree.meanL_one h2)))
        (hop _ _ _ _ _ _ rfl rfl)
    rw [e1, e2] at h0
    rw [value_mean hK hM s o (.inr (.inr rfl)) (hin _ (by simp)) rfl h0 rfl, hres, hint, hr]
    simp only [Comp.operand, Bool.false_eq_true, if_false]
    rfl

end

/-! ### Statements -/

theorem Splits.seq {cs : List (Code T V)} (h : cs ≠ []) :
    Splits (R := R) (cs.map .stm) [.stm (seqAll cs)] := by
  induction cs with
  | nil => exact absurd rfl h
  | cons c cs ih =>
    cases cs with
    | nil => rw [seqAll_one]; exact Splits.refl _
    | cons d ds => exact .split c _ (ih (by simp))

theorem withSemi_mean {K : Sem (S × D) V R} {M : Machine S V} {dev : Device D} {fs : List CFn} {cpp : Bool}
    (hK : K.Has M dev fs cpp) {u semi : Bool} {t : Tree} {d : Den (S × D) V R} {c : Code (S × D) V}
    (ht : t.mean K = some d) (hu : u = true → semi = true)
    (hd : d = .stm c ∨ u = true ∧ ∃ x, d.asVal K.numVal = some x ∧ c = .plain (Comp.bind x.2 fun _ => .pure .normal)) :
    ∃ cs, Tree.meanL K (withSemi u semi t) = some (cs.map .stm) ∧ cs ≠ [] ∧ seqAll cs = c := by
  cases u with
  | true =>
    obtain rfl := hu rfl
    refine ⟨[c], ?_, by simp, seqAll_one c⟩
    simp only [withSemi, if_true, List.map_cons, List.map_nil]
    refine Tree.meanL_one (Tree.node_mean (Tree.meanL_cons_some ht rfl) ?_)
    rcases hd with rfl | ⟨-, x, hx, rfl⟩
    · exact hK.stmSemi c
    · exact hK.exprStm d x hx
  | false =>
    obtain rfl : d = .stm c := by
      rcases hd with h | ⟨h, -⟩
      · exact h
      · cases h
    cases semi with
    | false =>
      refine ⟨[c], ?_, by simp, seqAll_one c⟩
      simp only [withSemi, Bool.false_eq_true, if_false, List.map_cons, List.map_nil]
      exact Tree.meanL_one ht
    | true =>
      refine ⟨[c, .skip], ?_, by simp, ?_⟩
      · simp only [withSemi, Bool.false_eq_true, if_false, if_true, List.map_cons, List.map_nil]
        exact Tree.meanL_cons_some ht (Tree.meanL_one (Tree.node_mean (ds := [.tok t!";"]) rfl hK.null))
      · simp only [seqAll, Code.seq_skip]

/-! ### Instrumented programs -/

theorem raise_pure (l : Lang) (o : Options) (M : Machine S V) (dev : Device D) (first : Nat) (v : V) :
    (Interp.instrumented l o M dev first).raise (.pure v) = .pure v := by
  refine Comp.ext fun s r => ?_
  simp [Interp.instrumented, Comp.pure, Res.withD]

theorem only_some {α : Type} {xs : List α} {x : α} (h : only xs = some x) : xs = [x] := by
  match xs, h with
  | [_], h => cases h; rfl

section
variable {K : Sem (S × D) V R} {E : Elab S V R} {M : Machine S V} {dev : Device D} {l : Lang} {o : Options}
  {first fuel : Nat} {calls : Nat → List V → Comp (S × D) V}
  (hA : K.Agrees E (Interp.instrumented l o M dev first) calls fuel)
include hA

theorem SrcPart.asExp_den {p : SrcPart S V R} {ty : Text} {e : Exp S V} (h : p.asExp E.numVal = some (ty, e)) :
    (p.den (Interp.instrumented l o M dev first) calls fuel).asVal K.numVal =
      some (ty, e.eval (Interp.instrumented l o M dev first) calls) ∧
    ∀ c, p.den (Interp.instrumented l o M dev first) calls fuel ≠ .stm c := by
  cases p <;> simp only [SrcPart.asExp, Option.some.injEq, Prod.mk.injEq, reduceCtorEq] at h
  · obtain ⟨rfl, rfl⟩ := h
    refine ⟨?_, fun c hc => by cases hc⟩
    simp only [SrcPart.den, Den.asVal, Exp.eval, raise_pure, hA.numVal]
  · obtain ⟨rfl, rfl⟩ := h
    exact ⟨rfl, fun c hc => by cases hc⟩

/-- An instrumented expression. -/
theorem exp_mean {ts : List Tree} {ps : List (SrcPart S V R)} {p : SrcPart S V R} {ty : Text} {e : Exp S V}
    (hp : only ps = some p) (he : p.asExp E.numVal = some (ty, e))
    (h : ∃ ds, Tree.meanL K ts = some ds ∧
      Splits ds (ps.map (SrcPart.den (Interp.instrumented l o M dev first) calls fuel))) :
    ∃ t d, ts = [t] ∧ t.mean K = some d ∧
      d.asVal K.numVal = some (ty, e.eval (Interp.instrumented l o M dev first) calls) := by
  obtain ⟨ds, h1, h2⟩ := h
  rw [only_some hp] at h2
  obtain ⟨ha, hn⟩ := SrcPart.asExp_den hA he
  rw [h2.single hn] at h1
  obtain ⟨t, rfl, ht⟩ := Tree.meanL_single h1
  exact ⟨t, _, rfl, ht, ha⟩

variable {fs : List CFn} {G : Grammar} (hG : G.Has l.cpp) (hK : K.Has M dev fs l.cpp) (hM : M.ConvOnce)
  (hT : l.cpp = false → M.IntTruth l)
include hG hK hM hT

mutual
/-- The meaning of the instrumented form of a piece is that of its elaboration in the instrumented
program. -/
theorem Syn.instr_mean : (x : Syn) → (id : Nat) → (ps : List (SrcPart S V R)) →
    x.Parsed G l.cpp → (∀ m ∈ Lay.mutsL x.lay, m.Readable l ∧ m.In fs l o) →
    x.elab E l o (first + id) = some ps →
    ∃ ds, Tree.meanL K (x.instr l o id) = some ds ∧
      Splits ds (ps.map (SrcPart.den (Interp.instrumented l o M dev first) calls fuel))
  | .tok t, id, ps, _, _, he => by
    simp only [Syn.elab, Option.some.injEq] at he
    subst he
    exact ⟨[.tok t], rfl, Splits.refl _⟩
  | .gap g, id, ps, _, _, he => by
    simp only [Syn.elab, Option.some.injEq] at he
    subst he
    exact ⟨[], rfl, .nil⟩
  | .const old v, id, ps, _, _, he => by
    simp only [Syn.elab, Option.some.injEq] at he
    subst he
    exact ⟨[.num v], Tree.meanL_one (Tree.num_mean hK v), Splits.refl _⟩
  | .node p ks, id, ps, hp, hm, he => by
    simp only [Syn.elab, Option.bind_eq_some_iff, Option.map_eq_some_iff] at he
    obtain ⟨qs, hq, q, hn, rfl⟩ := he
    obtain ⟨ds, h1, h2⟩ := Syn.instrL_mean ks id qs hp.2.2 hm hq
    have h3 := h2.node hK p []
    simp only [List.nil_append] at h3
    rw [hA.node p qs q hn] at h3
    exact ⟨_, Tree.meanL_one (Tree.node_mean h1 h3), Splits.refl _⟩
  | .expr s x, id, ps, hp, hm, he => by
    obtain ⟨-, hc, hx⟩ := hp
    simp only [Syn.lay, Lay.mutsL, Lay.muts, List.append_nil, List.mem_append, List.mem_singleton] at hm
    simp only [Syn.elab, Option.map_eq_some_iff, Option.bind_eq_some_iff] at he
    obtain ⟨⟨ty, e⟩, ⟨p, ⟨qs, hq, hone⟩, hpe⟩, rfl⟩ := he
    obtain ⟨t, d, ht, hd, hv⟩ := exp_mean hA hone hpe
      (Syn.instr_mean x id qs hx (fun m h => hm m (.inl h)) hq)
    simp only [Syn.instr, ht, List.map_cons, List.map_nil]
    obtain ⟨hr, hin⟩ := hm (.expr s) (.inr rfl)
    have hpar : (if s.binOp = some .comma then Tree.paren t else t).mean K = some d := by
      split
      · exact Tree.paren_mean hK hd hv
      · exact hd
    have hcall := s.mean hK hM o hr hin hpar hv s.self.cxx11Const
      (id + countAll l o.optimise (Lay.mutsL x.lay))
    have hid : first + id + countAll l o.optimise (Lay.mutsL x.lay) - first =
        id + countAll l o.optimise (Lay.mutsL x.lay) := by omega
    have hev : (if s.self.lvalue = true then
          Exp.loadAt s (first + id + countAll l o.optimise (Lay.mutsL x.lay)) e
        else .exprAt s (first + id + countAll l o.optimise (Lay.mutsL x.lay)) (operand l false s.self e)).eval
          (Interp.instrumented l o M dev first) calls =
        s.exec l o M dev (id + countAll l o.optimise (Lay.mutsL x.lay))
          ((e.eval (Interp.instrumented l o M dev first) calls).operand (M.withState D) l s.self.lvalue s.self) := by
      cases s.self.lvalue
      · simp only [Bool.false_eq_true, if_false, Exp.eval, operand_eval]
        simp only [Interp.instrumented, hid]
      · simp only [if_true, Exp.eval, Comp.operand]
        simp only [Interp.instrumented, hid]
    cases hi : s.initListCast with
    | none =>
      refine ⟨_, Tree.meanL_one hcall, ?_⟩
      simp only [List.map_cons, List.map_nil, SrcPart.den, hev]
      exact Splits.refl _
    | some ty' =>
      have := Tree.cast_mean hK (hc (by simp [hi])) (name_some l ty') (goodTy_toks (ty_plain l ty').1).2.2
        hcall rfl
      refine ⟨_, Tree.meanL_one this, ?_⟩
      simp only [List.map_cons, List.map_nil, SrcPart.den, Exp.eval, hev, Comp.as_name]
      exact Splits.refl _
  | .bin s a g1 g2 b, id, ps, hp, hm, he => by
    obtain ⟨-, -, hpa, hpb⟩ := hp
    simp only [Syn.lay, Lay.mutsL, Lay.muts, List.append_nil, List.mem_append, List.mem_singleton] at hm
    obtain ⟨hr, hin⟩ := hm (.bin s) (.inr rfl)
    simp only [Syn.elab, Option.bind_eq_some_iff] at he
    obtain ⟨⟨t1, e1⟩, ⟨p1, ⟨q1, hq1, ho1⟩, hx1⟩, ⟨t2, e2⟩, ⟨p2, ⟨q2, hq2, ho2⟩, hx2⟩, he⟩ := he
    obtain ⟨x, d1, hx, hd1, hv1⟩ := exp_mean hA ho1 hx1
      (Syn.instr_mean a id q1 hpa (fun m h => hm m (.inl (.inl h))) hq1)
    rw [Nat.add_assoc] at hq2
    obtain ⟨y, d2, hy, hd2, hv2⟩ := exp_mean hA ho2 hx2
      (Syn.instr_mean b (id + countAll l o.optimise (Lay.mutsL a.lay)) q2 hpb
        (fun m h => hm m (.inl (.inr h))) hq2)
    simp only [Syn.instr, hx, hy, List.flatMap_cons, List.flatMap_nil, List.map_cons, List.map_nil,
      List.append_nil]
    have hid : first + id + countAll l o.optimise (Lay.mutsL a.lay) +
        countAll l o.optimise (Lay.mutsL b.lay) - first =
        id + countAll l o.optimise (Lay.mutsL a.lay) + countAll l o.optimise (Lay.mutsL b.lay) := by omega
    split at he
    · cases he
    · rename_i hcond
      simp only [Option.some.injEq] at he
      subst he
      simp only [List.map_cons, List.map_nil, SrcPart.den, Exp.eval, operand_eval]
      simp only [Interp.instrumented, hid] at hv1 hv2 ⊢
      cases hcl : (!l.cpp && s.op.isLogical) with
      | true =>
        simp only [hcl, Bool.true_and, Bool.not_eq_true, Bool.not_eq_false', Bool.and_eq_true,
          beq_iff_eq] at hcond
        obtain ⟨⟨rfl, rfl⟩, hres⟩ := hcond
        simp only [Bool.and_eq_true, Bool.not_eq_true'] at hcl
        have hna : s.op.isAssign = false := by
          have := hcl.2
          revert this
          cases s.op <;> decide
        have := s.logical_mean hK hM o (hT hcl.1) hin hcl.1 hcl.2 hres hd1 hv1 hd2 hv2
          (id + countAll l o.optimise (Lay.mutsL a.lay) + countAll l o.optimise (Lay.mutsL b.lay))
        simp only [if_true]
        refine ⟨_, Tree.meanL_one this, ?_⟩
        rw [hna]
        exact Splits.refl _
      | false =>
        have := s.mean hK hM o hr hin hcl hd1 hv1 hd2 hv2
          (id + countAll l o.optimise (Lay.mutsL a.lay) + countAll l o.optimise (Lay.mutsL b.lay))
        simp only [Bool.false_eq_true, if_false]
        exact ⟨_, Tree.meanL_one this, Splits.refl _⟩
  | .pre s g x, id, ps, hp, hm, he => by
    simp only [Syn.lay, Lay.mutsL, Lay.muts, Lay.mutsL_append, gapLay_muts, List.nil_append,
      List.append_nil, List.mem_append, List.mem_singleton] at hm
    simp only [Syn.elab, Option.map_eq_some_iff, Option.bind_eq_some_iff] at he
    obtain ⟨⟨ty, e⟩, ⟨p, ⟨qs, hq, hone⟩, hpe⟩, rfl⟩ := he
    obtain ⟨t, d, ht, hd, hv⟩ := exp_mean hA hone hpe
      (Syn.instr_mean x id qs hp.2 (fun m h => hm m (.inl h)) hq)
    obtain ⟨hr, hin⟩ := hm (.un s) (.inr rfl)
    simp only [Syn.instr, ht, List.map_cons, List.map_nil]
    have hid : first + id + countAll l o.optimise (Lay.mutsL x.lay) - first =
        id + countAll l o.optimise (Lay.mutsL x.lay) := by omega
    simp only [SrcPart.den, Exp.eval, operand_eval]
    simp only [Interp.instrumented, hid] at hv ⊢
    exact ⟨_, Tree.meanL_one (s.mean hK hM o hr hin hd hv _ _), Splits.refl _⟩
  | .post s x g, id, ps, hp, hm, he => by
    simp only [Syn.lay, Lay.mutsL, Lay.muts, Lay.mutsL_append, gapLay_muts,
      List.append_nil, List.mem_append, List.mem_singleton] at hm
    simp only [Syn.elab, Option.map_eq_some_iff, Option.bind_eq_some_iff] at he
    obtain ⟨⟨ty, e⟩, ⟨p, ⟨qs, hq, hone⟩, hpe⟩, rfl⟩ := he
    obtain ⟨t, d, ht, hd, hv⟩ := exp_mean hA hone hpe
      (Syn.instr_mean x id qs hp.2 (fun m h => hm m (.inl h)) hq)
    obtain ⟨hr, hin⟩ := hm (.un s) (.inr rfl)
    simp only [Syn.instr, ht, List.map_cons, List.map_nil]
    have hid : first + id + countAll l o.optimise (Lay.mutsL x.lay) - first =
        id + countAll l o.optimise (Lay.mutsL x.lay) := by omega
    simp only [SrcPart.den, Exp.eval, operand_eval]
    simp only [Interp.instrumented, hid] at hv ⊢
    exact ⟨_, Tree.meanL_one (s.mean hK hM o hr hin hd hv _ _), Splits.refl _⟩
  | .stmt s x ext, id, ps, hp, hm, he => by
    obtain ⟨hse, ⟨p, hpx, hcase⟩, hx⟩ := hp
    simp only [Syn.lay, Lay.mutsL, Lay.muts, List.append_nil, List.mem_append, List.mem_singleton] at hm
    simp only [Syn.elab, Option.map_eq_some_iff, Option.bind_eq_some_iff, hpx, Option.map_some,
      Option.getD_some] at he
    obtain ⟨a, ⟨q, ⟨qs, hq, hone⟩, hqa⟩, rfl⟩ := he
    have hni : p ≠ .item := by
      rcases hcase with ⟨h, -⟩ | ⟨-, h, -⟩
      · rintro rfl
        cases h
      · exact h
    obtain ⟨t, ht⟩ : ∃ t, x.instr l o id = [t] := by
      rcases (Syn.instr_fine hG o x id hx fun m h => (hm m (.inl h)).1).2 p hpx with
        ⟨q, ks, h, -⟩ | ⟨h, -⟩
      · exact ⟨_, h⟩
      · exact absurd h hni
    obtain ⟨ds, h1, h2⟩ := Syn.instr_mean x id qs hx (fun m h => hm m (.inl h)) hq
    rw [ht] at h1
    rw [only_some hone] at h2
    simp only [Tree.meanL, Option.bind_eq_some_iff, Option.map_some, Option.some.injEq] at h1
    obtain ⟨d, hd, rfl⟩ := h1
    have h2 := h2.one
    have hd' : d = .stm (a.code (Interp.instrumented l o M dev first) calls fuel) ∨
        p.fits .unfinished = true ∧ ∃ y, d.asVal K.numVal = some y ∧
          a.code (Interp.instrumented l o M dev first) calls fuel = .plain (Comp.bind y.2 fun _ => .pure .normal) := by
      rw [h2]
      by_cases hst : ∃ b, q = .stm b
      · obtain ⟨b, rfl⟩ := hst
        simp only [SrcPart.asStm, Option.some.injEq] at hqa
        rw [hqa]
        exact .inl rfl
      · have : q.asStm E.numVal (p.fits .unfinished) =
            if p.fits .unfinished = true then (q.asExp E.numVal).map fun x => Stm.expr x.2 else none := by
          cases q <;> first | rfl | exact absurd ⟨_, rfl⟩ hst
        rw [this] at hqa
        split at hqa
        · rename_i hu
          simp only [Option.map_eq_some_iff] at hqa
          obtain ⟨⟨ty, e⟩, hae, rfl⟩ := hqa
          exact .inr ⟨hu, _, (SrcPart.asExp_den hA hae).1, rfl⟩
        · cases hqa
    have key := fun (b : Bool) (hb : tokens ext = [t!";"] → b = true) =>
      withSemi_mean hK (u := p.fits .unfinished) (semi := b) hd (fun hu => by
        rcases hcase with ⟨-, h⟩ | ⟨h, -, -⟩
        · exact hb h
        · rw [fits_not_unfinished h] at hu; cases hu) hd'
    simp only [Syn.instr, ht, hpx, Option.map_some, Option.getD_some, List.flatMap_cons, List.flatMap_nil,
      List.append_nil, List.map_cons, List.map_nil, SrcPart.den, Stm.code]
    have hid : first + id + countAll l o.optimise (Lay.mutsL x.lay) - first =
        id + countAll l o.optimise (Lay.mutsL x.lay) := by omega
    have hst : (Interp.instrumented l o M dev first).stmt
        (first + id + countAll l o.optimise (Lay.mutsL x.lay)) =
        stmtExec o dev (id + countAll l o.optimise (Lay.mutsL x.lay)) := by
      show (fun c => stmtExec o dev (first + id + countAll l o.optimise (Lay.mutsL x.lay) - first) c) = _
      rw [hid]
    rw [hst]
    have hsx : (stmtExec (V := V) (S := S) o dev (id + countAll l o.optimise (Lay.mutsL x.lay))) = fun c =>
      if o.track then Comp.bind (onDevice (dev.record (id + countAll l o.optimise (Lay.mutsL x.lay)) 1)) fun _ => c
      else Comp.bind (onDevice (dev.query (id + countAll l o.optimise (Lay.mutsL x.lay)))) fun en =>
        if !en then c else .pure .normal := rfl
    rw [hsx]
    split
    · obtain ⟨cs, hcs, hne, hseq⟩ := key (decide (tokens ext = [t!";"])) (by simp)
      refine ⟨_, Tree.meanL_cons_some (Tree.record_mean hK _ _) hcs, ?_⟩
      have := Splits.seq (R := R) (cs := .plain (Comp.bind (onDevice
        (dev.record (id + countAll l o.optimise (Lay.mutsL x.lay)) 1)) fun _ => .pure .normal) :: cs) (by simp)
      rw [seqAll, hseq, Code.plain_seq] at this
      exact this
    · obtain ⟨cs, hcs, hne, hseq⟩ := key (decide (tokens ext = [t!";"]) || (!s.extSemi && s.nextHash))
        (fun h => by simp [h])
      rw [← hseq]
      exact ⟨_, Tree.meanL_one (Tree.guarded_mean hK hcs), Splits.refl _⟩

theorem Syn.instrL_mean : (xs : List Syn) → (id : Nat) → (ps : List (SrcPart S V R)) →
    Syn.ParsedL G l.cpp xs → (∀ m ∈ Lay.mutsL (Syn.layL xs), m.Readable l ∧ m.In fs l o) →
    Syn.elabL E l o (first + id) xs = some ps →
    ∃ ds, Tree.meanL K (Syn.instrL l o id xs) = some ds ∧
      Splits ds (ps.map (SrcPart.den (Interp.instrumented l o M dev first) calls fuel))
  | [], id, ps, _, _, he => by
    simp only [Syn.elabL, Option.some.injEq] at he
    subst he
    exact ⟨[], rfl, .nil⟩
  | x :: xs, id, ps, hp, hm, he => by
    simp only [Syn.layL, Lay.mutsL_append, List.mem_append] at hm
    simp only [Syn.elabL, Option.bind_eq_some_iff, Option.map_eq_some_iff] at he
    obtain ⟨q, hq, qs, hqs, rfl⟩ := he
    rw [Nat.add_assoc] at hqs
    obtain ⟨d1, h1, s1⟩ := Syn.instr_mean x id q hp.1 (fun m h => hm m (.inl h)) hq
    obtain ⟨d2, h2, s2⟩ := Syn.instrL_mean xs _ qs hp.2 (fun m h => hm m (.inr h)) hqs
    refine ⟨d1 ++ d2, Tree.meanL_append_some h1 h2, ?_⟩
    rw [List.map_append]
    exact s1.append s2
end

end

end Dredd
