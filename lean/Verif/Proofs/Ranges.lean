/-
Where the nodes that are mutated are in the text (C92).
-/
import Verif.Proofs.Exact
import Verif.Proofs.SourceVisit

namespace Dredd

/-- The part that is the `i`th child, and its offset. -/
def pickPart : Nat → Nat → List Src → Option (Nat × Src)
  | _, _, [] => none
  | i, off, p :: ps =>
    if p.nodes.isEmpty then pickPart i (off + p.str.length) ps
    else
      match i with
      | 0 => some (off, p)
      | j + 1 => pickPart j (off + p.str.length) ps

theorem pick_cons (i off : Nat) (p : Src) (ps : List Src) : pickPart i off (p :: ps) =
    if p.nodes.isEmpty then pickPart i (off + p.str.length) ps
    else
      match i with
      | 0 => some (off, p)
      | j + 1 => pickPart j (off + p.str.length) ps := by
  cases i <;> simp only [pickPart]

theorem endsInItem_ne {ps : List Src} (h : endsInItem ps = true) (hn : ps ≠ []) : Src.nodesL ps ≠ [] := by
  induction ps with
  | nil => exact absurd rfl hn
  | cons p ps ih =>
    cases ps with
    | nil => cases p <;> simp_all [endsInItem, Src.nodesL, Src.nodes]
    | cons p' ps =>
      have h' : endsInItem (p' :: ps) = true := by
        cases p <;> simpa [endsInItem] using h
      have := ih h' (by simp)
      rw [Src.nodesL]
      exact List.append_ne_nil_of_right_ne_nil _ this

/-- The piece at a place, and its offset. -/
def Src.start : List Nat → Nat → Src → Option (Nat × Src)
  | [], off, p => some (off, p)
  | i :: r, off, .node _ ps => (pickPart i off ps).bind fun x => Src.start r x.1 x.2
  | _ :: _, _, _ => none

theorem pick_in {i off : Nat} {ps : List Src} {o : Nat} {k : Src} (h : pickPart i off ps = some (o, k)) :
    off ≤ o ∧ o + k.str.length ≤ off + (Src.strL ps).length := by
  induction ps generalizing i off with
  | nil => cases h
  | cons p ps ih =>
    simp only [Src.strL, List.length_append]
    rw [pick_cons] at h
    split at h
    · have := ih h
      omega
    · cases i with
      | zero =>
        simp only [Option.some.injEq, Prod.mk.injEq] at h
        obtain ⟨rfl, rfl⟩ := h
        omega
      | succ j =>
        have := ih h
        omega

theorem pick_lt {i j off : Nat} {ps : List Src} {o o' : Nat} {k k' : Src} (h : pickPart i off ps = some (o, k))
    (h' : pickPart j off ps = some (o', k')) (hij : i < j) : o + k.str.length ≤ o' := by
  induction ps generalizing i j off with
  | nil => cases h
  | cons p ps ih =>
    rw [pick_cons] at h h'
    split at h
    · rename_i hp
      rw [if_pos hp] at h'
      exact ih h h' hij
    · rename_i hp
      rw [if_neg hp] at h'
      cases j with
      | zero => omega
      | succ j =>
        cases i with
        | zero =>
          simp only [Option.some.injEq, Prod.mk.injEq] at h
          obtain ⟨rfl, rfl⟩ := h
          exact (pick_in h').1
        | succ i => exact ih h h' (by omega)

theorem start_in {r : List Nat} {off : Nat} {p : Src} {o : Nat} {k : Src} (h : p.start r off = some (o, k)) :
    off ≤ o ∧ o + k.str.length ≤ off + p.str.length := by
  induction r generalizing off p with
  | nil =>
    simp only [Src.start, Option.some.injEq, Prod.mk.injEq] at h
    obtain ⟨rfl, rfl⟩ := h
    omega
  | cons i r ih =>
    cases p with
    | tok t => cases h
    | quiet n ls => cases h
    | node n ps =>
      simp only [Src.start, Option.bind_eq_some_iff] at h
      obtain ⟨⟨o1, k1⟩, h1, h2⟩ := h
      have h3 := pick_in h1
      have h4 := ih h2
      simp only [Src.str] at *
      omega

theorem start_append (q r : List Nat) (off : Nat) (p : Src) :
    p.start (q ++ r) off = (p.start q off).bind fun x => x.2.start r x.1 := by
  induction q generalizing off p with
  | nil => rfl
  | cons i q ih =>
    cases p with
    | tok t => rfl
    | quiet n ls => rfl
    | node n ps =>
      simp only [List.cons_append, Src.start, Option.bind_assoc]
      congr 1
      funext x
      exact ih _ _

/-- Places further down are inside. -/
theorem start_inside {p : Src} {q r : List Nat} {o o' : Nat} {k k' : Src} (h : p.start q 0 = some (o, k))
    (h' : p.start (q ++ r) 0 = some (o', k')) : o ≤ o' ∧ o' + k'.str.length ≤ o + k.str.length := by
  rw [start_append, h] at h'
  exact start_in h'

/-- Places further left are to the left. -/
theorem start_left {p : Src} {q r r' : List Nat} {i j o o' : Nat} {k k' : Src} (hij : i < j)
    (h : p.start (q ++ i :: r) 0 = some (o, k)) (h' : p.start (q ++ j :: r') 0 = some (o', k')) :
    o + k.str.length ≤ o' := by
  rw [start_append, Option.bind_eq_some_iff] at h h'
  obtain ⟨⟨o1, n⟩, h1, h2⟩ := h
  obtain ⟨⟨o2, n'⟩, h3, h4⟩ := h'
  rw [h1] at h3
  simp only [Option.some.injEq, Prod.mk.injEq] at h3
  obtain ⟨rfl, rfl⟩ := h3
  cases n with
  | tok t => cases h2
  | quiet n ls => cases h2
  | node n ps =>
    simp only [Src.start, Option.bind_eq_some_iff] at h2 h4
    obtain ⟨⟨a, x⟩, h5, h6⟩ := h2
    obtain ⟨⟨b, y⟩, h7, h8⟩ := h4
    have h9 := pick_lt h5 h7 hij
    have h10 := start_in h6
    have h11 := start_in h8
    simp only at *
    omega

theorem pick_nodeL {ps : List Src} {off : Nat} {near : Bool} (h : Src.LaidL off near ps) {i : Nat} {k : Node}
    (hk : (Src.nodesL ps)[i]? = some k) :
    ∃ o x, pickPart i off ps = some (o, x) ∧ x.nodes = [k] ∧ x.Laid o := by
  induction ps generalizing off near i with
  | nil => simp [Src.nodesL] at hk
  | cons p ps ih =>
    cases p with
    | tok t =>
      rw [Src.LaidL] at h
      simp only [Src.nodesL, Src.nodes, List.nil_append] at hk
      obtain ⟨o, x, h1, h2⟩ := ih h.2 hk
      exact ⟨o, x, by simpa [pickPart, Src.nodes, Src.str] using h1, h2⟩
    | quiet n ls =>
      rw [Src.LaidL] at h
      simp only [Src.nodesL, Src.nodes, List.singleton_append] at hk
      cases i with
      | zero =>
        simp only [List.getElem?_cons_zero, Option.some.injEq] at hk
        exact ⟨off, _, by simp [pickPart, Src.nodes], by simp [Src.nodes, hk], h.1⟩
      | succ i =>
        obtain ⟨o, x, h1, h2⟩ := ih h.2 (i := i) (by simpa using hk)
        exact ⟨o, x, by simpa [pickPart, Src.nodes, Src.str] using h1, h2⟩
    | node n qs =>
      rw [Src.LaidL] at h
      simp only [Src.nodesL, Src.nodes, List.singleton_append] at hk
      cases i with
      | zero =>
        simp only [List.getElem?_cons_zero, Option.some.injEq] at hk
        exact ⟨off, _, by simp [pickPart, Src.nodes], by simp [Src.nodes, hk], h.2.1⟩
      | succ i =>
        obtain ⟨o, x, h1, h2⟩ := ih h.2.2 (i := i) (by simpa using hk)
        exact ⟨o, x, by simpa [pickPart, Src.nodes, Src.str] using h1, h2⟩

theorem pick_nodeB {ps : List Src} {off ext : Nat} {near : Bool} (h : Src.LaidB off near ext ps) {i : Nat} {k : Node}
    (hk : (Src.nodesL ps)[i]? = some k) :
    ∃ o x, pickPart i off ps = some (o, x) ∧ x.nodes = [k] ∧ x.Laid o ∧ x.mayBeItem = true := by
  induction ps generalizing off near ext i with
  | nil => simp [Src.nodesL] at hk
  | cons p ps ih =>
    cases p with
    | tok t =>
      rw [Src.LaidB] at h
      simp only [Src.nodesL, Src.nodes, List.nil_append] at hk
      obtain ⟨o, x, h1, h2⟩ := ih h.2.2 hk
      exact ⟨o, x, by simpa [pickPart, Src.nodes, Src.str] using h1, h2⟩
    | quiet n ls =>
      rw [Src.LaidB] at h
      simp only [Src.nodesL, Src.nodes, List.singleton_append] at hk
      cases i with
      | zero =>
        simp only [List.getElem?_cons_zero, Option.some.injEq] at hk
        exact ⟨off, _, by simp [pickPart, Src.nodes], by simp [Src.nodes, hk], h.2.1, h.2.2.1⟩
      | succ i =>
        obtain ⟨o, x, h1, h2⟩ := ih h.2.2.2 (i := i) (by simpa using hk)
        exact ⟨o, x, by simpa [pickPart, Src.nodes, Src.str] using h1, h2⟩
    | node n qs =>
      rw [Src.LaidB] at h
      simp only [Src.nodesL, Src.nodes, List.singleton_append] at hk
      cases i with
      | zero =>
        simp only [List.getElem?_cons_zero, Option.some.injEq] at hk
        exact ⟨off, _, by simp [pickPart, Src.nodes], by simp [Src.nodes, hk], h.2.2.1, rfl⟩
      | succ i =>
        obtain ⟨o, x, h1, h2⟩ := ih h.2.2.2 (i := i) (by simpa using hk)
        exact ⟨o, x, by simpa [pickPart, Src.nodes, Src.str] using h1, h2⟩

/-- The last node of a labelled statement may be an item. -/
theorem pick_last {ps : List Src} (he : endsInItem ps = true) {i off o : Nat} {x : Src}
    (h : pickPart i off ps = some (o, x)) (hi : i + 1 = (Src.nodesL ps).length) : x.mayBeItem = true := by
  induction ps generalizing i off with
  | nil => cases h
  | cons p ps ih =>
    rw [pick_cons] at h
    cases ps with
    | nil =>
      cases p with
      | tok t => simp [endsInItem] at he
      | quiet n ls =>
        cases i with
        | zero =>
          simp only [Src.nodes, List.isEmpty_cons, Bool.false_eq_true, if_false, Option.some.injEq, Prod.mk.injEq] at h
          rw [← h.2]
          simpa [endsInItem, Src.mayBeItem] using he
        | succ i => simp [Src.nodesL, Src.nodes] at hi
      | node n qs =>
        cases i with
        | zero =>
          simp only [Src.nodes, List.isEmpty_cons, Bool.false_eq_true, if_false, Option.some.injEq, Prod.mk.injEq] at h
          rw [← h.2]
          rfl
        | succ i => simp [Src.nodesL, Src.nodes] at hi
    | cons p' ps =>
      have he' : endsInItem (p' :: ps) = true := by
        cases p <;> simpa [endsInItem] using he
      have hne : (Src.nodesL (p' :: ps)) ≠ [] := endsInItem_ne he' (by simp)
      split at h
      · rename_i hp
        refine ih he' h ?_
        rw [hi, Src.nodesL, List.isEmpty_iff.1 hp]
        rfl
      · rename_i hp
        have h1 : p.nodes.length = 1 := by cases p <;> simp_all [Src.nodes]
        cases i with
        | zero =>
          rw [Src.nodesL, List.length_append, h1] at hi
          have : (Src.nodesL (p' :: ps)).length ≠ 0 := fun h => hne (List.length_eq_zero_iff.1 h)
          omega
        | succ i =>
          refine ih he' h ?_
          rw [Src.nodesL, List.length_append, h1] at hi
          omega

theorem constantOnly_stmt {s : AStmt} {ks : List Node} (above : List NodeInfo)
    (h : (Node.stmt s ks).constantOnly = true) : skipStmt above s = true := by
  simp only [Node.constantOnly] at h
  unfold skipStmt
  cases hk : s.kind <;> simp only [hk] at h <;> try cases h
  rename_i e
  cases hc : e.cls
  case call frame adl member =>
    cases frame <;> simp_all
  all_goals simp_all

theorem stillL_get {ks : List Node} (h : Node.stillL ks = true) {i : Nat} {k : Node} (hk : ks[i]? = some k) :
    k.still = true := by
  induction ks generalizing i with
  | nil => simp at hk
  | cons x ks ih =>
    simp only [Node.stillL, Bool.and_eq_true] at h
    cases i with
    | zero => simp only [List.getElem?_cons_zero, Option.some.injEq] at hk; rw [← hk]; exact h.1
    | succ i => exact ih h.2 (by simpa using hk)

theorem unplaced_item {n : Node} (h : n.unplaced = true) : n.stillItem = true := by
  cases n <;> simp_all [Node.unplaced, Node.stillItem]

/-- A node the visitor gets to is a piece of the text, or in a piece without mutations. -/
def Status (p : Src) (c : Ctx) (n : Node) : Prop :=
  (∃ off i ps, p.start c.pos 0 = some (off, .node i ps) ∧ n = i.mk (Src.nodesL ps) ∧ (Src.node i ps).Laid off) ∨
  ((n.still = true ∨ n.constantOnly = true) ∧ (isItem c.above = true → n.stillItem = true))

theorem isItem_cons {i : NodeInfo} {above : List NodeInfo} (h : isItem (i :: above) = true) :
    i.isBlock = true ∨ ∃ s, i = .stmt s ∧ (s.kind = .case_ ∨ s.kind = .default_) ∧ isItem above = true := by
  cases i with
  | decl d => simp [isItem, NodeInfo.kind?] at h
  | other o => simp [isItem, NodeInfo.kind?] at h
  | stmt s =>
    cases hk : s.kind <;> simp [isItem, NodeInfo.kind?, hk] at h
    · exact .inl (by simp [NodeInfo.isBlock, hk])
    · exact .inr ⟨s, rfl, .inl hk, h⟩
    · exact .inr ⟨s, rfl, .inr hk, h⟩

theorem of_piece {p : Src} {c : Ctx} {k : Node} {o : Nat} {x : Src} (h : p.start c.pos 0 = some (o, x))
    (hn : x.nodes = [k]) (hl : x.Laid o) (hi : isItem c.above = true → x.mayBeItem = true) : Status p c k := by
  cases x with
  | tok t => simp [Src.nodes] at hn
  | quiet n ls =>
    simp only [Src.nodes, List.cons.injEq, and_true] at hn
    subst hn
    rw [Src.Laid] at hl
    exact .inr ⟨hl.1, hi⟩
  | node i ps =>
    simp only [Src.nodes, List.cons.injEq, and_true] at hn
    exact .inl ⟨o, i, ps, h, hn.symm, hl⟩

theorem loud_step {p : Src} {c c' : Ctx} {off j : Nat} {i : NodeInfo} {ps : List Src} {k : Node}
    (h : p.start c.pos 0 = some (off, .node i ps)) (hl : (Src.node i ps).Laid off)
    (hk : (Src.nodesL ps)[j]? = some k) (hp : c'.pos = c.pos ++ [j]) (ha : c'.above = i :: c.above)
    (hi : ∀ s, i = .stmt s → (s.kind = .case_ ∨ s.kind = .default_) → isItem c.above = true →
      j + 1 = (Src.nodesL ps).length) : Status p c' k := by
  rw [Src.Laid] at hl
  have hst : ∀ {o x}, pickPart j off ps = some (o, x) → p.start c'.pos 0 = some (o, x) := by
    intro o x hx
    rw [hp, start_append, h]
    simp [Src.start, hx]
  rcases hl with ⟨hn, ⟨hb, hl⟩ | ⟨hb, hl⟩⟩
  · obtain ⟨o, x, h1, h2, h3⟩ := pick_nodeL hl hk
    refine of_piece (hst h1) h2 h3 fun hit => ?_
    rw [ha] at hit
    rcases isItem_cons hit with h4 | ⟨s, rfl, h5, h6⟩
    · rw [hb] at h4; cases h4
    · exact pick_last (hn.2 h5) h1 (hi s rfl h5 h6)
  · obtain ⟨o, x, h1, h2, h3, h4⟩ := pick_nodeB hl hk
    exact of_piece (hst h1) h2 h3 fun _ => h4

theorem quiet_step {p : Src} {c' : Ctx} {above : List NodeInfo} {s : AStmt} {ks : List Node} {j : Nat} {k : Node}
    (h : (Node.stmt s ks).still = true) (hk : ks[j]? = some k) (ha : c'.above = .stmt s :: above) : Status p c' k := by
  simp only [Node.still, Bool.and_eq_true] at h
  refine .inr ⟨.inl (stillL_get h.2 hk), fun hi => ?_⟩
  have hs : s.hasItems = true := by
    rw [ha] at hi
    rcases isItem_cons hi with h4 | ⟨s', e, h5, -⟩
    · simp only [NodeInfo.isBlock, beq_iff_eq] at h4
      simp [AStmt.hasItems, h4]
    · cases e
      rcases h5 with h5 | h5 <;> simp [AStmt.hasItems, h5]
  have := h.1.2
  rw [hs] at this
  simp only [Bool.not_true, Bool.false_or, List.all_eq_true] at this
  exact unplaced_item (this k (List.mem_of_getElem? hk))

theorem Path.status {l : Lang} {opt : Bool} {root : Node} {c : Ctx} {n : Node} {p : Src}
    (hast : p.nodes = [root]) (hl : p.Laid 0) (h : Path l opt root c n) : Status p c n := by
  induction h with
  | root => exact of_piece (c := ⟨[], [], []⟩) rfl hast hl (by simp [isItem])
  | @decl c c' d ks i k _ hi hr hc hk ih =>
    rcases ih with ⟨off, n, ps, h1, h2, h3⟩ | ⟨h1 | h1, h2⟩
    · cases n <;> simp only [NodeInfo.mk, Node.decl.injEq, reduceCtorEq] at h2
      obtain ⟨rfl, rfl⟩ := h2
      exact loud_step h1 h3 hk (by rw [enter_pos, (declCtx_pos hc).1]) (by rw [enter_above, (declCtx_pos hc).2])
        (by intro s hs; cases hs)
    · refine .inr ⟨.inl (stillL_get (by simpa [Node.still] using h1) hk), fun h => ?_⟩
      rw [enter_above] at h
      simp [isItem, NodeInfo.kind?] at h
    · have : declCtx l c d = none := by
        unfold Node.constantOnly at h1
        unfold declCtx
        cases hd : d.kind <;> simp_all
      rw [this] at hc
      cases hc
  | @stmt c s ks i k _ hs hcase hi hk ih =>
    rcases ih with ⟨off, n, ps, h1, h2, h3⟩ | ⟨h1 | h1, h2⟩
    · cases n <;> simp only [NodeInfo.mk, Node.stmt.injEq, reduceCtorEq] at h2
      obtain ⟨rfl, rfl⟩ := h2
      refine loud_step h1 h3 hk rfl rfl ?_
      rintro s' hs' h4 h5
      cases hs'
      rcases h4 with h4 | h4
      · exact absurd h4 (hi h5).1
      · exact absurd h4 (hi h5).2.1
    · exact quiet_step h1 hk rfl
    · rw [constantOnly_stmt _ h1] at hs; cases hs
  | @label c s ks i k _ hkind hi hk hlast ih =>
    rcases ih with ⟨off, n, ps, h1, h2, h3⟩ | ⟨h1 | h1, h2⟩
    · cases n <;> simp only [NodeInfo.mk, Node.stmt.injEq, reduceCtorEq] at h2
      obtain ⟨rfl, rfl⟩ := h2
      exact loud_step h1 h3 hk rfl rfl fun _ _ _ _ => hlast
    · exact quiet_step h1 hk rfl
    · rcases hkind with h | h <;> simp [Node.constantOnly, h] at h1
  | @other c o ks i k _ hi ho hk ih =>
    rcases ih with ⟨off, n, ps, h1, h2, h3⟩ | ⟨h1 | h1, h2⟩
    · cases n <;> simp only [NodeInfo.mk, Node.other.injEq, reduceCtorEq] at h2
      obtain ⟨rfl, rfl⟩ := h2
      exact loud_step h1 h3 hk rfl rfl (by intro s hs; cases hs)
    · refine .inr ⟨.inl (stillL_get (by simpa [Node.still] using h1) hk), fun h => ?_⟩
      rw [enter_above] at h
      simp [isItem, NodeInfo.kind?] at h
    · have : skipOther l o = true := by
        unfold Node.constantOnly at h1
        cases o <;> simp_all [skipOther]
      rw [this] at ho; cases ho

theorem removal_stillItem {opt : Bool} {s : AStmt} {ks : List Node} (h : (Node.stmt s ks).stillItem = true) :
    removal opt s = [] := by
  simp only [Node.stillItem, Bool.or_eq_true, Option.isNone_iff_eq_none, beq_iff_eq] at h
  unfold removal
  rcases h with h | h
  · simp [h]
  · cases s.range <;> simp [h]

/-- Every mutation belongs to a piece of the text, and its range is where the piece is. -/
theorem visitTU_start (l : Lang) (opt : Bool) (root : Node) (p : Src) (hast : p.nodes = [root]) (hl : p.Laid 0)
    {ev} (h : ev ∈ (visitTU l opt root).cur.post) {above s ks} (hp : Place root ev.1 above (.stmt s ks))
    {sp : Span} (hr : s.range = some sp) :
    ∃ x, p.start ev.1 0 = some (sp.b, x) ∧ sp.e = sp.b + x.str.length ∧ sp.b < sp.e := by
  obtain ⟨c, s', ks', hpath, hpos, -, ho⟩ := visitTU_from l opt root ev h
  obtain ⟨above', hf⟩ := hpath.reach.fine
  have hpl := hf.place
  rw [hpos] at hpl
  obtain ⟨-, e⟩ := hp.unique hpl rfl
  cases e
  rcases hpath.status hast hl with ⟨off, n, ps, h1, h2, h3⟩ | ⟨h1, h2⟩
  · cases n <;> simp only [NodeInfo.mk, Node.stmt.injEq, reduceCtorEq] at h2
    obtain ⟨rfl, rfl⟩ := h2
    rw [Src.Laid] at h3
    rcases h3.1.1 with h4 | ⟨h4, h5, -⟩
    · rw [hr] at h4; cases h4
    · rw [hr] at h4
      cases h4
      rw [← hpos]
      exact ⟨_, h1, rfl, by simp only; omega⟩
  · exfalso
    rcases ho with ⟨hs, e, locs, hk, hm⟩ | ⟨hi, -, -, hm⟩
    · rcases h1 with h1 | h1
      · simp only [Node.still, Bool.and_eq_true] at h1
        rw [still_visitExpr h1.1.1 hk] at hm
        cases hm
      · rw [constantOnly_stmt _ h1] at hs; cases hs
    · rw [removal_stillItem (h2 hi)] at hm
      cases hm

end Dredd
