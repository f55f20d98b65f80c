/-
Helper lemmas: what the visitor adds to the mutation tree, in which order, and
from where.
-/
import Verif.Model.Visitor
import Verif.Spec.Syntax
import Verif.Spec.Tree

namespace Dredd

/-- Items of compound statements, from the ancestors. -/
def isItem : List NodeInfo → Bool
  | [] => false
  | i :: above =>
    match i.kind? with
    | some .compound => true
    | some .case_ | some .default_ => isItem above
    | _ => false

/-- The nodes that the visitor gets to, and the contexts. -/
inductive Reach (l : Lang) (root : Node) : Ctx → Node → Prop
  | root : Reach l root ⟨[], [], []⟩ root
  | decl {c c' d ks i k} : Reach l root c (.decl d ks) →
      (d.isTU = true ∨ d.range.isSome = true) → declCtx l c d = some c' → ks[i]? = some k →
      Reach l root (c'.enter (.decl d) i) k
  | stmt {c s ks i k} : Reach l root c (.stmt s ks) → skipStmt c.above s = false →
      s.kind ≠ .case_ → ks[i]? = some k → Reach l root (c.enter (.stmt s) i) k
  | label {c s ks i k} : Reach l root c (.stmt s ks) → (s.kind = .case_ ∨ s.kind = .default_) →
      (skipStmt c.above s = false ∨ isItem c.above = true) → ks[i]? = some k → i + 1 = ks.length → Reach l root (c.enter (.stmt s) i) k
  | other {c o ks i k} : Reach l root c (.other o ks) → skipOther l o = false → ks[i]? = some k →
      Reach l root (c.enter (.other o) i) k

/-- Where a mutation at a statement comes from. -/
def Origin (opt : Bool) (c : Ctx) (s : AStmt) (ks : List Node) (m : Mutation) : Prop :=
  (skipStmt c.above s = false ∧ ∃ e locs, s.kind = .expr e ∧ m ∈ visitExpr opt c locs s e ks) ∨
  (isItem c.above = true ∧ m ∈ removal opt s)

/-- A mutation that comes from a node that the visitor gets to. -/
def FromNode (l : Lang) (opt : Bool) (root : Node) (ev : List Nat × Mutation) : Prop :=
  ∃ c s ks, Reach l root c (.stmt s ks) ∧ c.pos = ev.1 ∧ Origin opt c s ks ev.2

/-- What a step of the visitor does to the current node of the mutation tree. -/
def Good (Q P : List Nat × Mutation → Prop) (f : VState → VState) : Prop :=
  ∀ st : VState, st.cur.muts = [] → ∃ evs, (f st).cur.muts = [] ∧
    (f st).cur.post = st.cur.post ++ evs ∧ (∀ ev ∈ evs, Q ev ∧ P ev) ∧ evs.Pairwise Before

theorem Good.skip {Q P} {f : VState → VState} (h : ∀ st, (f st).cur = st.cur) : Good Q P f := by
  intro st hm
  exact ⟨[], by rw [h, hm], by rw [h, List.append_nil], by simp, .nil⟩

theorem Good.weaken {Q P P'} {f : VState → VState} (h : ∀ ev, P ev → P' ev) (hf : Good Q P f) :
    Good Q P' f := by
  intro st hm
  obtain ⟨evs, h1, h2, h3, h4⟩ := hf st hm
  exact ⟨evs, h1, h2, fun ev he => ⟨(h3 ev he).1, h _ (h3 ev he).2⟩, h4⟩

theorem Good.seq {Q P P'} {f g : VState → VState} (hf : Good Q P f) (hg : Good Q P' g)
    (h : ∀ a b, P a → P' b → Before a b) : Good Q (fun ev => P ev ∨ P' ev) (fun st => g (f st)) := by
  intro st hm
  obtain ⟨evs, h1, h2, h3, h4⟩ := hf st hm
  obtain ⟨evs', h1', h2', h3', h4'⟩ := hg (f st) h1
  refine ⟨evs ++ evs', h1', by rw [h2', h2, List.append_assoc], ?_, ?_⟩
  · intro ev he
    rcases List.mem_append.mp he with he | he
    · exact ⟨(h3 ev he).1, .inl (h3 ev he).2⟩
    · exact ⟨(h3' ev he).1, .inr (h3' ev he).2⟩
  · rw [List.pairwise_append]
    exact ⟨h4, h4', fun a ha b hb => h a b (h3 a ha).2 (h3' b hb).2⟩

/-- Nothing else of the state matters to what happens before or after. -/
theorem Good.pre {Q P} {f g : VState → VState} (hg : ∀ st, (g st).cur = st.cur) (hf : Good Q P f) :
    Good Q P (fun st => f (g st)) := by
  intro st hm
  obtain ⟨evs, h1, h2, h3, h4⟩ := hf (g st) (by rw [hg, hm])
  exact ⟨evs, h1, by rw [h2, hg], h3, h4⟩

theorem Good.after {Q P} {f g : VState → VState} (hg : ∀ st, (g st).cur = st.cur) (hf : Good Q P f) :
    Good Q P (fun st => g (f st)) := by
  intro st hm
  obtain ⟨evs, h1, h2, h3, h4⟩ := hf st hm
  exact ⟨evs, by rw [hg, h1], by rw [hg, h2], h3, h4⟩

theorem add_cur (st : VState) (p : List Nat) (ms : List Mutation) :
    (st.add p ms).cur = .node (st.cur.muts ++ ms.map (p, ·)) st.cur.kids := by
  simp only [VState.add]
  have : ∀ t : MTree (List Nat × Mutation), ms.foldl (fun t m => t.addMutation (p, m)) t
      = .node (t.muts ++ ms.map (p, ·)) t.kids := by
    induction ms with
    | nil => intro t; cases t; simp [MTree.muts, MTree.kids]
    | cons m ms ih =>
      intro t
      rw [List.foldl_cons, ih]
      cases t
      simp [MTree.addMutation, MTree.muts, MTree.kids]
  exact this _

theorem postL_append {α} (ts us : List (MTree α)) :
    MTree.postL (ts ++ us) = MTree.postL ts ++ MTree.postL us := by
  induction ts with
  | nil => rfl
  | cons t ts ih => simp [MTree.postL, ih]

theorem post_addChild {α} (t c : MTree α) (h : t.muts = []) :
    (t.addChild c).post = t.post ++ c.post ∧ (t.addChild c).muts = [] := by
  cases t
  simp only [MTree.muts] at h
  subst h
  simp [MTree.addChild, MTree.muts, MTree.kids, MTree.post, postL_append, MTree.postL]

theorem post_eq {α} (t : MTree α) : t.post = MTree.postL t.kids ++ t.muts := by
  cases t; simp [MTree.post, MTree.kids, MTree.muts]

/-- A node pushed, a step, and mutations added for the node. -/
theorem Good.inChild {Q P} {f : VState → VState} (hf : Good Q P f) (p : List Nat)
    (ms : VState → List Mutation) (hq : ∀ st, ∀ m ∈ ms st, Q (p, m))
    (hr : ∀ st, (ms st).Pairwise fun a b => a.rank < b.rank)
    (h : ∀ st, ∀ a, P a → ∀ m ∈ ms st, Before a (p, m)) :
    Good Q (fun ev => P ev ∨ ∃ st, ∃ m ∈ ms st, ev = (p, m))
      (fun st => st.inChild fun st => (f st).add p (ms (f st))) := by
  intro st hm
  obtain ⟨evs, h1, h2, h3, h4⟩ := hf { st with cur := .node [] [] } rfl
  let r := f { st with cur := .node [] [] }
  have e : (st.inChild fun st => (f st).add p (ms (f st))).cur
      = st.cur.addChild ((r.add p (ms r)).cur) := rfl
  have ep : ((r.add p (ms r)).cur).post = evs ++ (ms r).map (p, ·) := by
    rw [add_cur, h1]
    have := post_eq r.cur
    rw [h1, List.append_nil, h2] at this
    simp only [MTree.post, List.nil_append]
    rw [← this]
    simp [MTree.post, MTree.postL]
  refine ⟨evs ++ (ms r).map (p, ·), ?_, ?_, ?_, ?_⟩
  · rw [e]; exact (post_addChild _ _ hm).2
  · rw [e, (post_addChild _ _ hm).1, ep]
  · intro ev he
    rcases List.mem_append.mp he with he | he
    · exact ⟨(h3 ev he).1, .inl (h3 ev he).2⟩
    · obtain ⟨m, hm, rfl⟩ := List.mem_map.mp he
      exact ⟨hq r m hm, .inr ⟨r, m, hm, rfl⟩⟩
  · rw [List.pairwise_append]
    refine ⟨h4, ?_, ?_⟩
    · rw [List.pairwise_map]
      exact (hr r).imp fun hab => .inr (.inr ⟨rfl, hab⟩)
    · intro a ha b hb
      obtain ⟨m, hm, rfl⟩ := List.mem_map.mp hb
      exact h r a (h3 a ha).2 m hm

/-- At a place or below. -/
def Under (p : List Nat) (ev : List Nat × Mutation) : Prop := ∃ r, ev.1 = p ++ r

/-- Below a place, at the child `i` or further right. -/
def UnderFrom (p : List Nat) (i : Nat) (ev : List Nat × Mutation) : Prop :=
  ∃ j r, i ≤ j ∧ ev.1 = p ++ j :: r

theorem UnderFrom.under {p i ev} (h : UnderFrom p i ev) : Under p ev := by
  obtain ⟨j, r, _, h⟩ := h; exact ⟨j :: r, h⟩

theorem Under.kid {p i ev} (h : Under (p ++ [i]) ev) : UnderFrom p i ev := by
  obtain ⟨r, h⟩ := h; exact ⟨i, r, Nat.le_refl _, by simpa using h⟩

theorem UnderFrom.mono {p i j ev} (h : UnderFrom p j ev) (hij : i ≤ j) : UnderFrom p i ev := by
  obtain ⟨k, r, hk, h⟩ := h; exact ⟨k, r, Nat.le_trans hij hk, h⟩

theorem before_sibling {p i a b} (ha : Under (p ++ [i]) a) (hb : UnderFrom p (i + 1) b) :
    Before a b := by
  obtain ⟨r, ha⟩ := ha
  obtain ⟨j, r', hj, hb⟩ := hb
  exact .inr (.inl ⟨p, i, j, r, r', hj, by simpa using ha, hb⟩)

theorem before_parent {p i a m} (ha : UnderFrom p i a) : Before a (p, m) := by
  obtain ⟨j, r, _, ha⟩ := ha
  exact .inl ⟨j, r, ha⟩

theorem mem_handleUnary {opt s sp e t op ks m} (h : m ∈ handleUnary opt s sp e t op ks) :
    ∃ s' e' sp' t', childExpr .operand ks = some (s', e') ∧ s'.range = some sp' ∧ e'.ty = some t' ∧
      op ≠ .plus ∧ (op.isIncDec && e'.bitField) = false ∧
      handleUnary opt s sp e t op ks = [m] ∧
      m = .un ⟨op, e'.infoAt t', e.infoAt t, e.opOff, sp, s.info, s'.info, s.node⟩ := by
  unfold handleUnary at h ⊢
  split at h
  · simp at h
  · rename_i s' e' hc
    split at h
    · rename_i sp' t' hr ht
      by_cases h1 : (op == UOp.plus) = true
      · simp [h1] at h
      · by_cases h2 : (op.isIncDec && e'.bitField) = true
        · simp [h1, h2] at h
        · rw [if_neg h1, if_neg h2] at h
          obtain ⟨u, hu, rfl⟩ := List.mem_map.mp h
          unfold UnSite.handle at hu
          split at hu
          · simp at hu
          · rename_i h3
            rw [List.mem_singleton] at hu
            refine ⟨s', e', sp', t', hc, hr, ht, by simpa using h1, by simpa using h2, ?_,
              by rw [hu]⟩
            rw [if_neg h1, if_neg h2, UnSite.handle, if_neg h3, hu]
            rfl
    · simp at h

theorem mem_handleBinary {opt s sp e t op ks m} (h : m ∈ handleBinary opt s sp e t op ks) :
    ∃ sl el sr er pl pr tl tr, childExpr .lhs ks = some (sl, el) ∧ childExpr .rhs ks = some (sr, er) ∧
      sl.range = some pl ∧ sr.range = some pr ∧ el.ty = some tl ∧ er.ty = some tr ∧
      op ≠ .comma ∧ (op.isAssign && el.bitField) = false ∧
      handleBinary opt s sp e t op ks = [m] ∧
      m = .bin ⟨op, el.infoAt tl, er.infoAt tr, t, e.opOff, sp, pl, pr, s.info, sl.info, sr.info,
          s.node⟩ := by
  unfold handleBinary at h ⊢
  split at h
  · rename_i sl el sr er hl hr
    split at h
    · rename_i pl pr tl tr h1 h2 h3 h4
      by_cases h5 : (op.isAssign && el.bitField) = true
      · simp [h5] at h
      · by_cases h6 : (op == BOp.comma) = true
        · simp [h5, h6] at h
        · rw [if_neg h5, if_neg h6] at h
          obtain ⟨u, hu, rfl⟩ := List.mem_map.mp h
          unfold BinSite.handle at hu
          split at hu
          · simp at hu
          · rename_i h7
            rw [List.mem_singleton] at hu
            refine ⟨sl, el, sr, er, pl, pr, tl, tr, hl, hr, h1, h2, h3, h4, by simpa using h6,
              by simpa using h5, ?_, by rw [hu]⟩
            rw [if_neg h5, if_neg h6, BinSite.handle, if_neg h7, hu]
            rfl
    · simp at h
  · simp at h

theorem mem_handleOp {opt s sp e t ks m} (h : m ∈ handleOp opt s sp e t ks) :
    (∃ op, e.cls = .unary op ∧ m ∈ handleUnary opt s sp e t op ks) ∨
    (∃ op, e.cls = .binary op ∧ m ∈ handleBinary opt s sp e t op ks) := by
  unfold handleOp at h
  split at h
  · exact .inl ⟨_, ‹_›, h⟩
  · exact .inr ⟨_, ‹_›, h⟩
  · simp at h

theorem handleOp_single {opt s sp e t ks m} (h : m ∈ handleOp opt s sp e t ks) :
    handleOp opt s sp e t ks = [m] ∧ m.rank = 0 := by
  rcases mem_handleOp h with ⟨op, hc, h⟩ | ⟨op, hc, h⟩
  · obtain ⟨_, _, _, _, _, _, _, _, _, h1, h2⟩ := mem_handleUnary h
    exact ⟨by rw [handleOp, hc]; exact h1, by rw [h2]; rfl⟩
  · obtain ⟨_, _, _, _, _, _, _, _, _, _, _, _, _, _, _, _, h1, h2⟩ := mem_handleBinary h
    exact ⟨by rw [handleOp, hc]; exact h1, by rw [h2]; rfl⟩

theorem mem_handleExpr {opt above s sp e t ks m} (h : m ∈ handleExpr opt above s sp e t ks) :
    (e.lvalue && !canMutateLValue above e) = false ∧ e.cls ≠ .initList ∧
      (e.nullConst && ((castParent above e).map (·.anyPointer)).getD false) = false ∧
      enumToConstructor above e ks = false ∧ bitFieldTemporary above e ks = false ∧
      (opt && ((castParent above e).map fun k => k.lvalue == e.lvalue).getD false &&
        parentCls above != some .initList) = false ∧
      (opt && parentIsBlock above) = false ∧
      handleExpr opt above s sp e t ks = [m] ∧ m = .expr (exprSite above s sp e t) := by
  unfold handleExpr at h ⊢
  split at h
  · simp at h
  split at h
  · simp at h
  split at h
  · simp at h
  split at h
  · simp at h
  split at h
  · simp at h
  split at h
  · simp at h
  split at h
  · simp at h
  rename_i h1 h2 h3 h4 h5 h6 h7
  rw [List.mem_singleton] at h
  refine ⟨by simpa only [Bool.not_eq_true] using h1, h2, by simpa only [Bool.not_eq_true] using h3,
    by simpa only [Bool.not_eq_true] using h4, by simpa only [Bool.not_eq_true] using h5,
    by simpa only [Bool.not_eq_true] using h6, by simpa only [Bool.not_eq_true] using h7, ?_, h⟩
  rw [if_neg h1, if_neg h2, if_neg h3, if_neg h4, if_neg h5, if_neg h6, if_neg h7, h]

theorem mem_visitExpr {opt c locs s e ks m} (h : m ∈ visitExpr opt c locs s e ks) :
    ∃ sp t, (opt && e.cls == .paren) = false ∧ (opt && e.cls == .cleanups) = false ∧
      isInFunction c.encl = true ∧ locs.contains e.beginLoc = false ∧ s.range = some sp ∧
      e.consistent = true ∧ e.ty = some t ∧ mayAffectAdl c.above e ks = false ∧
      mayDependOnTemp (.stmt s ks) = false ∧
      visitExpr opt c locs s e ks = handleOp opt s sp e t ks ++ handleExpr opt c.above s sp e t ks := by
  unfold visitExpr at h ⊢
  split at h
  · simp at h
  split at h
  · simp at h
  split at h
  · simp at h
  split at h
  · simp at h
  split at h
  · simp at h
  split at h
  · simp at h
  split at h
  · simp at h
  split at h
  · simp at h
  split at h
  · simp at h
  rename_i h1 h2 h3 h4 _ sp h5 h6 _ t h7 h8 h9
  refine ⟨sp, t, by simpa only [Bool.not_eq_true] using h1, by simpa only [Bool.not_eq_true] using h2,
    by simpa using h3, by simpa only [Bool.not_eq_true] using h4, h5, by simpa using h6, h7,
    by simpa only [Bool.not_eq_true] using h8, by simpa only [Bool.not_eq_true] using h9, ?_⟩
  rw [if_neg h1, if_neg h2, if_neg h3, if_neg h4]
  rw [if_neg h6, if_neg h8, if_neg h9]

theorem rank_visitExpr (opt : Bool) (c : Ctx) (locs s e ks) :
    (visitExpr opt c locs s e ks).Pairwise (fun a b => a.rank < b.rank) ∧
    ∀ m ∈ visitExpr opt c locs s e ks, m.rank < 2 := by
  by_cases hn : visitExpr opt c locs s e ks = []
  · simp [hn]
  obtain ⟨m, hm⟩ := List.exists_mem_of_ne_nil _ hn
  obtain ⟨sp, t, _, _, _, _, _, _, _, _, _, hv⟩ := mem_visitExpr hm
  rw [hv]
  have h0 : ∀ m ∈ handleOp opt s sp e t ks, m.rank = 0 := fun m hm => (handleOp_single hm).2
  have h1 : ∀ m ∈ handleExpr opt c.above s sp e t ks, m.rank = 1 := by
    intro m hm
    obtain ⟨_, _, _, _, _, _, _, _, h⟩ := mem_handleExpr hm
    rw [h]; rfl
  have p0 : (handleOp opt s sp e t ks).Pairwise (fun a b => a.rank < b.rank) := by
    by_cases hn : handleOp opt s sp e t ks = []
    · simp [hn]
    · obtain ⟨m, hm⟩ := List.exists_mem_of_ne_nil _ hn
      rw [(handleOp_single hm).1]
      exact List.pairwise_singleton _ _
  have p1 : (handleExpr opt c.above s sp e t ks).Pairwise (fun a b => a.rank < b.rank) := by
    by_cases hn : handleExpr opt c.above s sp e t ks = []
    · simp [hn]
    · obtain ⟨m, hm⟩ := List.exists_mem_of_ne_nil _ hn
      obtain ⟨_, _, _, _, _, _, _, h, _⟩ := mem_handleExpr hm
      rw [h]
      exact List.pairwise_singleton _ _
  constructor
  · rw [List.pairwise_append]
    exact ⟨p0, p1, fun a ha b hb => by rw [h0 a ha, h1 b hb]; omega⟩
  · intro m hm
    rcases List.mem_append.mp hm with hm | hm
    · rw [h0 m hm]; omega
    · rw [h1 m hm]; omega

theorem rank_removal (opt : Bool) (s : AStmt) :
    (removal opt s).Pairwise (fun a b => a.rank < b.rank) ∧ ∀ m ∈ removal opt s, m.rank = 2 := by
  simp only [removal]
  repeat' split
  all_goals simp [Mutation.rank]

theorem inChild_none (st : VState) (f : VState → VState) (p : List Nat) :
    (st.inChild fun st => (f st).add p []) = st.inChild f := by
  have : (fun st => (f st).add p []) = f := by funext st; simp [VState.add]
  rw [this]

theorem Good.congr {Q P} {f g : VState → VState} (h : ∀ st, f st = g st) (hf : Good Q P f) :
    Good Q P g := by
  have : f = g := funext h
  rw [← this]; exact hf

/-- `stmtStep` at a place, and after it what it leaves at the place itself:
mutations of rank below 2. -/
def UnderLow (p : List Nat) (ev : List Nat × Mutation) : Prop :=
  UnderFrom p 0 ev ∨ (ev.1 = p ∧ ev.2.rank < 2)

theorem UnderLow.under {p ev} (h : UnderLow p ev) : Under p ev := by
  rcases h with h | h
  · exact h.under
  · exact ⟨[], by simp [h.1]⟩

theorem stmtStep_good (l : Lang) (opt : Bool) (root : Node) (c : Ctx) (s : AStmt) (ks : List Node)
    (kids last block : Ctx → VState → VState) (hr : Reach l root c (.stmt s ks))
    (hk : skipStmt c.above s = false → s.kind ≠ .case_ →
      Good (FromNode l opt root) (UnderFrom c.pos 0) (kids c))
    (hl : skipStmt c.above s = false → s.kind = .case_ →
      Good (FromNode l opt root) (UnderFrom c.pos 0) (last c))
    (hb : skipStmt c.above s = false → s.kind = .compound →
      Good (FromNode l opt root) (UnderFrom c.pos 0) (block c)) :
    Good (FromNode l opt root) (UnderLow c.pos) (stmtStep opt c s ks kids last block) := by
  by_cases hs : skipStmt c.above s = true
  · refine Good.skip fun st => ?_
    simp [stmtStep, hs]
  · have hs : skipStmt c.above s = false := by simpa using hs
    have none_ : ∀ f : VState → VState, Good (FromNode l opt root) (UnderFrom c.pos 0) f →
        Good (FromNode l opt root) (UnderLow c.pos) (fun st => st.inChild f) := by
      intro f hf
      refine Good.weaken (P := fun ev => UnderFrom c.pos 0 ev ∨ ∃ st : VState, ∃ m ∈ ([] : List Mutation), ev = (c.pos, m)) ?_ ?_
      · rintro ev (h | ⟨_, m, hm, _⟩)
        · exact .inl h
        · simp at hm
      · refine Good.congr (fun st => inChild_none st f c.pos) ?_
        exact Good.inChild hf c.pos (fun _ => []) (by simp) (by simp) (by simp)
    have hst : ∀ st, stmtStep opt c s ks kids last block st = st.inChild (fun st =>
        match s.kind with
        | .compound => block c st
        | .case_ => last c st
        | .expr e => (kids c st).add c.pos (visitExpr opt c (kids c st).locs s e ks)
        | _ => kids c st) := by
      intro st
      simp only [stmtStep, hs]
      rfl
    cases hkind : s.kind
    case compound =>
      refine Good.congr (fun st => ?_) (none_ _ (hb hs hkind))
      rw [hst, hkind]
    case case_ =>
      refine Good.congr (fun st => ?_) (none_ _ (hl hs hkind))
      rw [hst, hkind]
    case expr e =>
      refine Good.congr (fun st => by rw [hst, hkind]) ?_
      refine Good.weaken ?_ (Good.inChild (hk hs (by simp [hkind])) c.pos
        (fun st => visitExpr opt c st.locs s e ks) ?_ ?_ ?_)
      · rintro ev (h | ⟨st, m, hm, rfl⟩)
        · exact .inl h
        · exact .inr ⟨rfl, (rank_visitExpr opt c st.locs s e ks).2 m hm⟩
      · intro st m hm
        exact ⟨c, s, ks, hr, rfl, .inl ⟨hs, e, st.locs, hkind, hm⟩⟩
      · intro st
        exact (rank_visitExpr opt c st.locs s e ks).1
      · intro st a ha m _
        exact before_parent ha
    all_goals
      refine Good.congr (fun st => ?_) (none_ _ (hk hs (by simp [hkind])))
      rw [hst, hkind]

theorem item_good (l : Lang) (opt : Bool) (root : Node) (c : Ctx) (s : AStmt) (ks : List Node)
    (f : VState → VState) (hr : Reach l root c (.stmt s ks)) (hi : isItem c.above = true)
    (hf : Good (FromNode l opt root) (UnderLow c.pos) f) :
    Good (FromNode l opt root) (Under c.pos)
      (fun st => st.inChild fun st => (f st).add c.pos (removal opt s)) := by
  refine Good.weaken ?_ (Good.inChild hf c.pos (fun _ => removal opt s) ?_ ?_ ?_)
  · rintro ev (h | ⟨_, m, _, rfl⟩)
    · exact h.under
    · exact ⟨[], by simp⟩
  · intro _ m hm
    exact ⟨c, s, ks, hr, rfl, .inr ⟨hi, hm⟩⟩
  · intro _
    exact (rank_removal opt s).1
  · intro _ a ha m hm
    rcases ha with ha | ⟨h1, h2⟩
    · exact before_parent ha
    · exact .inr (.inr ⟨h1, by rw [(rank_removal opt s).2 m hm]; exact h2⟩)

theorem Good.cons {Q p i} {f g : VState → VState} (hf : Good Q (Under (p ++ [i])) f)
    (hg : Good Q (UnderFrom p (i + 1)) g) : Good Q (UnderFrom p i) (fun st => g (f st)) := by
  refine Good.weaken ?_ (Good.seq hf hg fun a b ha hb => before_sibling ha hb)
  rintro ev (h | h)
  · exact h.kid
  · exact h.mono (by omega)

theorem noteDecl_cur (l : Lang) (d : Decl) (st : VState) : (noteDecl l d st).cur = st.cur := by
  unfold noteDecl
  split <;> rfl

theorem visitDecl_cur (d : Decl) (st : VState) : (visitDecl d st).cur = st.cur := by
  unfold visitDecl
  split <;> rfl

theorem declStep_good {Q P} (l : Lang) (c : Ctx) (d : Decl) (kids : Ctx → VState → VState)
    (h : ∀ c', declCtx l c d = some c' → Good Q P (kids c')) : Good Q P (declStep l c d kids) := by
  unfold declStep
  split
  · exact Good.skip (noteDecl_cur l d)
  · exact Good.after (g := visitDecl d) (visitDecl_cur d)
      (Good.pre (g := noteDecl l d) (noteDecl_cur l d) (h _ ‹_›))

theorem enter_pos (c : Ctx) (n : NodeInfo) (i : Nat) : (c.enter n i).pos = c.pos ++ [i] := rfl
theorem enter_above (c : Ctx) (n : NodeInfo) (i : Nat) : (c.enter n i).above = n :: c.above := rfl

theorem declCtx_pos {l c d c'} (h : declCtx l c d = some c') : c'.pos = c.pos ∧ c'.above = c.above := by
  unfold declCtx at h
  split at h
  all_goals
    repeat' split at h
  all_goals first
    | cases h; exact ⟨rfl, rfl⟩
    | cases h

mutual
theorem traverse_good (l : Lang) (opt : Bool) (root : Node) (c : Ctx) : (n : Node) →
    Reach l root c n → Good (FromNode l opt root) (Under c.pos) (traverse l opt c n)
  | .decl d ks, hr => by
    by_cases hd : (!d.isTU && !d.range.isSome) = true
    · refine Good.skip fun st => ?_
      simp only [traverse, hd, if_true]
    · have e : ∀ st, declStep l c d (fun c st => traverseL l opt c (.decl d) 0 ks st) st
          = traverse l opt c (.decl d ks) st := by
        intro st
        rw [traverse, if_neg hd]
      refine Good.congr e (declStep_good l c d _ fun c' hc' => ?_)
      rw [← (declCtx_pos hc').1]
      have hd' : d.isTU = true ∨ d.range.isSome = true := by
        cases h1 : d.isTU <;> cases h2 : d.range.isSome <;> simp [h1, h2] at hd ⊢
      exact Good.weaken (fun _ h => h.under)
        (traverseL_good l opt root c' (.decl d) 0 ks
          fun j k hj => .decl hr hd' hc' (by simpa using hj))
  | .stmt s ks, hr => by
    have e : ∀ st, stmtStep opt c s ks (fun c st => traverseL l opt c (.stmt s) 0 ks st)
      (fun c st => traverseLast l opt c (.stmt s) 0 ks st)
      (fun c st => blockItems l opt c (.stmt s) 0 ks st) st = traverse l opt c (.stmt s ks) st := by
      intro st; rw [traverse]
    refine Good.congr e (Good.weaken (fun _ h => h.under) (stmtStep_good l opt root c s ks _ _ _ hr ?_ ?_ ?_))
    · intro hs hk
      exact traverseL_good l opt root c (.stmt s) 0 ks fun j k hj => .stmt hr hs hk (by simpa using hj)
    · intro hs hk
      exact traverseLast_good l opt root c (.stmt s) 0 ks fun j k hj hl =>
        .label hr (.inl hk) (.inl hs) (by simpa using hj) (by simpa using hl)
    · intro hs hk
      exact blockItems_good l opt root c (.stmt s) 0 ks (by simp [NodeInfo.kind?, isItem, hk])
        fun j k hj => .stmt hr hs (by simp [hk]) (by simpa using hj)
  | .other k ks, hr => by
    by_cases hs : skipOther l k = true
    · refine Good.skip fun st => ?_
      simp only [traverse, hs, if_true]
    · have e : ∀ st, traverseL l opt c (.other k) 0 ks st = traverse l opt c (.other k ks) st := by
        intro st; rw [traverse, if_neg hs]
      refine Good.congr e (Good.weaken (fun _ h => h.under) (traverseL_good l opt root c (.other k) 0 ks
        fun j k' hj => .other hr (by simpa using hs) (by simpa using hj)))

theorem traverseL_good (l : Lang) (opt : Bool) (root : Node) (c : Ctx) (n : NodeInfo) (i : Nat) :
    (ks : List Node) → (∀ j k, ks[j]? = some k → Reach l root (c.enter n (i + j)) k) →
    Good (FromNode l opt root) (UnderFrom c.pos i) (traverseL l opt c n i ks)
  | [], _ => Good.skip fun st => by rw [traverseL]
  | k :: ks, h => by
    refine Good.congr (fun st => by rw [traverseL]) (Good.cons (f := traverse l opt (c.enter n i) k)
      (traverse_good l opt root _ k (h 0 k rfl)) (traverseL_good l opt root c n (i + 1) ks ?_))
    intro j k' hj
    have := h (j + 1) k' hj
    rwa [show i + (j + 1) = i + 1 + j by omega] at this

theorem traverseLast_good (l : Lang) (opt : Bool) (root : Node) (c : Ctx) (n : NodeInfo) (i : Nat) :
    (ks : List Node) →
    (∀ j k, ks[j]? = some k → j + 1 = ks.length → Reach l root (c.enter n (i + j)) k) →
    Good (FromNode l opt root) (UnderFrom c.pos i) (traverseLast l opt c n i ks)
  | [], _ => Good.skip fun st => by rw [traverseLast]
  | [k], h => by
    refine Good.congr (f := traverse l opt (c.enter n i) k) (fun st => by rw [traverseLast])
      (Good.weaken (fun _ h => Under.kid h) (traverse_good l opt root (c.enter n i) k (h 0 k rfl rfl)))
  | k :: k' :: ks, h => by
    refine Good.congr (f := traverseLast l opt c n (i + 1) (k' :: ks)) (fun st => by simp [traverseLast]) ?_
    refine Good.weaken (fun _ h => h.mono (by omega))
      (traverseLast_good l opt root c n (i + 1) (k' :: ks) ?_)
    intro j k'' hj hl
    have := h (j + 1) k'' hj (by simpa using hl)
    rwa [show i + (j + 1) = i + 1 + j by omega] at this

theorem blockItems_good (l : Lang) (opt : Bool) (root : Node) (c : Ctx) (n : NodeInfo) (i : Nat) :
    (ks : List Node) → isItem (n :: c.above) = true →
    (∀ j k, ks[j]? = some k → Reach l root (c.enter n (i + j)) k) →
    Good (FromNode l opt root) (UnderFrom c.pos i) (blockItems l opt c n i ks)
  | [], _, _ => Good.skip fun st => by rw [blockItems]
  | k :: ks, hi, h => by
    refine Good.congr (fun st => by rw [blockItems]) (Good.cons (f := blockItem l opt (c.enter n i) k)
      (blockItem_good l opt root (c.enter n i) k hi (h 0 k rfl))
      (blockItems_good l opt root c n (i + 1) ks hi ?_))
    intro j k' hj
    have := h (j + 1) k' hj
    rwa [show i + (j + 1) = i + 1 + j by omega] at this

theorem blockItem_good (l : Lang) (opt : Bool) (root : Node) (c : Ctx) : (n : Node) →
    isItem c.above = true → Reach l root c n →
    Good (FromNode l opt root) (Under c.pos) (blockItem l opt c n)
  | .decl d ks, _, _ => Good.skip fun st => by rw [blockItem]; simp
  | .other k ks, _, _ => Good.skip fun st => by rw [blockItem]; simp
  | .stmt s ks, hi, hr => by
    by_cases hk : s.kind = .case_ ∨ s.kind = .default_
    · refine Good.congr (f := blockLast l opt c (.stmt s) 0 ks) (fun st => ?_) ?_
      · rw [blockItem]; rcases hk with hk | hk <;> simp [hk]
      · refine Good.weaken (fun _ h => h.under) (blockLast_good l opt root c (.stmt s) 0 ks ?_ ?_)
        · rcases hk with hk | hk <;> simp [isItem, NodeInfo.kind?, hk, hi]
        · intro j k hj hl
          exact .label hr hk (.inr hi) (by simpa using hj) (by simpa using hl)
    · have hk1 : s.kind ≠ .case_ := fun h => hk (.inl h)
      have hk2 : s.kind ≠ .default_ := fun h => hk (.inr h)
      by_cases hp : pointless opt s = true
      · refine Good.skip fun st => ?_
        rw [blockItem]
        split
        · contradiction
        · contradiction
        · rw [if_pos hp]
      · refine Good.congr (f := fun st => st.inChild fun st =>
          (stmtStep opt c s ks (fun c st => traverseL l opt c (.stmt s) 0 ks st)
            (fun c st => traverseLast l opt c (.stmt s) 0 ks st)
            (fun c st => blockItems l opt c (.stmt s) 0 ks st) st).add c.pos (removal opt s)) (fun st => ?_) ?_
        · rw [blockItem]
          split
          · contradiction
          · contradiction
          · rw [if_neg hp]
        · refine item_good l opt root c s ks _ hr hi (stmtStep_good l opt root c s ks _ _ _ hr ?_ ?_ ?_)
          · intro hs hk
            exact traverseL_good l opt root c (.stmt s) 0 ks fun j k hj => .stmt hr hs hk (by simpa using hj)
          · intro _ hk
            exact absurd hk hk1
          · intro hs hk
            exact blockItems_good l opt root c (.stmt s) 0 ks (by simp [NodeInfo.kind?, isItem, hk])
              fun j k hj => .stmt hr hs (by simp [hk]) (by simpa using hj)

theorem blockLast_good (l : Lang) (opt : Bool) (root : Node) (c : Ctx) (n : NodeInfo) (i : Nat) :
    (ks : List Node) → isItem (n :: c.above) = true →
    (∀ j k, ks[j]? = some k → j + 1 = ks.length → Reach l root (c.enter n (i + j)) k) →
    Good (FromNode l opt root) (UnderFrom c.pos i) (blockLast l opt c n i ks)
  | [], _, _ => Good.skip fun st => by rw [blockLast]
  | [k], hi, h => by
    refine Good.congr (f := blockItem l opt (c.enter n i) k) (fun st => by rw [blockLast])
      (Good.weaken (fun _ h => Under.kid h) (blockItem_good l opt root (c.enter n i) k hi (h 0 k rfl rfl)))
  | k :: k' :: ks, hi, h => by
    refine Good.congr (f := blockLast l opt c n (i + 1) (k' :: ks)) (fun st => by simp [blockLast]) ?_
    refine Good.weaken (fun _ h => h.mono (by omega))
      (blockLast_good l opt root c n (i + 1) (k' :: ks) hi ?_)
    intro j k'' hj hl
    have := h (j + 1) k'' hj (by simpa using hl)
    rwa [show i + (j + 1) = i + 1 + j by omega] at this
end

/-- The mutations of a translation unit: where they come from and their
order. -/
theorem visitTU_good (l : Lang) (opt : Bool) (root : Node) :
    (∀ ev ∈ (visitTU l opt root).cur.post, FromNode l opt root ev) ∧
    (visitTU l opt root).cur.post.Pairwise Before := by
  obtain ⟨evs, _, h2, h3, h4⟩ := traverse_good l opt root ⟨[], [], []⟩ root .root VState.start rfl
  have : (visitTU l opt root).cur.post = evs := by
    rw [visitTU, h2]; rfl
  rw [this]
  exact ⟨fun ev he => (h3 ev he).1, h4⟩

end Dredd
