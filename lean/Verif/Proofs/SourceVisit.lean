/-
Helper lemmas: the visitor on parsed source text.
-/
import Verif.Proofs.Source

namespace Dredd

/-- A step of the visitor on a stretch of text: the mutations added are those of pieces
for the text.  If there is a node just before, the pieces do not begin with an
instrumented one. -/
def Step (off : Nat) (near : Bool) (t : Text) (cs : List ConstRewrite) (f : VState → VState) : Prop :=
  ∀ st : VState, st.cur.muts = [] →
    ∃ ls, Adds f st (Lay.mutsL ls) ∧ Lay.Cov off t cs ls ∧ (near = true → Lay.bare ls = true)

/-- The same for an item of a block, which may take up to `ext` characters of what
comes after. -/
def ItemStep (off ext : Nat) (t : Text) (cs : List ConstRewrite) (f : VState → VState) : Prop :=
  ∀ after : Text, ext ≤ after.length → ∀ st : VState, st.cur.muts = [] →
    ∃ ls k, k ≤ ext ∧ Adds f st (Lay.mutsL ls) ∧ Lay.Cov off (t ++ after.take k) cs ls

/-- A piece may be the item of a block. -/
def Src.mayBeItem : Src → Bool
  | .quiet n _ => n.stillItem
  | _ => true

/-- What the visitor does with a piece. -/
structure Visited (l : Lang) (opt : Bool) (p : Src) : Prop where
  trav : ∀ off c n, p.Laid off → p.nodes = [n] →
    Step off false p.str (p.consts off) (traverse l opt c n)
  item : ∀ off c n, p.Laid off → p.nodes = [n] → p.mayBeItem = true →
    ItemStep off (itemExt p) p.str (p.consts off) (blockItem l opt c n)

theorem Step.congr {off near t cs} {f g : VState → VState} (h : f = g) (hf : Step off near t cs f) :
    Step off near t cs g := h ▸ hf

theorem Step.item {off ext t cs f} (h : Step off false t cs f) : ItemStep off ext t cs f := by
  intro after _ st hm
  obtain ⟨ls, h1, h2, -⟩ := h st hm
  exact ⟨ls, 0, Nat.zero_le _, h1, by simpa using h2⟩

/-- Nothing is added for a text. -/
theorem Step.silent {off near t cs ls f} (hf : Silent f) (hc : Lay.Cov off t cs ls)
    (hb : ∀ x ∈ ls, x.isNode = false ∧ x.muts = []) : Step off near t cs f := by
  intro st hm
  refine ⟨ls, ?_, hc, fun _ => (bare_of_all hb).1⟩
  rw [(bare_of_all hb).2]
  exact hf st hm

theorem Step.inChild {off near t cs f} (h : Step off near t cs f) :
    Step off near t cs (fun st => st.inChild f) := by
  intro st hm
  obtain ⟨ls, h1, h2, h3⟩ := h { st with cur := .node [] [] } rfl
  exact ⟨ls, Adds.inChild_none hm h1, h2, h3⟩

theorem Step.seq {off off' near near' t t' cs cs' f g} (hf : Step off near t cs f)
    (hg : Step off' true t' cs' g) (ho : off' = off + t.length) (hn : near' = true → near = true)
    (hb : t = [] → near' = false) :
    Step off near' (t ++ t') (cs ++ cs') (fun st => g (f st)) := by
  intro st hm
  obtain ⟨ls, h1, h2, h3⟩ := hf st hm
  obtain ⟨ls', h1', h2', h3'⟩ := hg (f st) h1.1
  refine ⟨ls ++ ls', ?_, h2.append h2' ho (h3' rfl), fun h => ?_⟩
  · rw [Lay.mutsL_append]; exact h1.seq h1'
  · cases ls with
    | nil =>
      have : t = [] := h2.src.symm
      rw [hb this] at h
      cases h
    | cons x xs => exact h3 (hn h)

theorem Lay.Cov.append_plain {off off' t t' cs cs' ls ls'} (h : Lay.Cov off t cs ls)
    (h' : Lay.Cov off' t' cs' ls') (ho : off' = off + t.length)
    (hb : ∀ x ∈ ls, x.isNode = false ∧ x.muts = []) :
    Lay.Cov off (t ++ t') (cs ++ cs') (ls ++ ls') := by
  subst ho
  refine ⟨?_, ?_, ?_, ?_, (Lay.apartL_append _ _).2 ⟨h.apart, h'.apart⟩⟩
  · rw [Lay.srcL_append, h.src, h'.src]
  · rw [Lay.constsL_append, h.src, h.consts, h'.consts]
  · rw [Lay.fitsL_append, h.src]; exact ⟨h.fits, h'.fits⟩
  · have := h'.spaced
    clear h h'
    induction ls with
    | nil => exact this
    | cons x xs ih =>
      exact Lay.spaced_cons _ _ (ih fun y hy => hb y (List.mem_cons_of_mem _ hy))
        (.inl (hb x List.mem_cons_self).1)

/-- Pieces without mutations in front. -/
theorem Step.after_plain {off off' near t t' cs cs' ls f}
    (hc : Lay.Cov off t cs ls) (hb : ∀ x ∈ ls, x.isNode = false ∧ x.muts = [])
    (hf : Step off' (near && t.isEmpty) t' cs' f) (ho : off' = off + t.length) :
    Step off near (t ++ t') (cs ++ cs') f := by
  intro st hm
  obtain ⟨ls', h1, h2, h3⟩ := hf st hm
  refine ⟨ls ++ ls', ?_, hc.append_plain h2 ho hb, fun h => ?_⟩
  · rw [Lay.mutsL_append, (bare_of_all hb).2]; exact h1
  · cases ls with
    | nil =>
      have : t = [] := hc.src.symm
      subst this
      exact h3 (by simpa using h)
    | cons x xs => simp [Lay.bare, (hb x List.mem_cons_self).1]

theorem ItemStep.after_plain {off off' ext t t' cs cs' ls f}
    (hc : Lay.Cov off t cs ls) (hb : ∀ x ∈ ls, x.isNode = false ∧ x.muts = [])
    (hf : ItemStep off' ext t' cs' f) (ho : off' = off + t.length) :
    ItemStep off ext (t ++ t') (cs ++ cs') f := by
  intro after ha st hm
  obtain ⟨ls', k, hk, h1, h2⟩ := hf after ha st hm
  refine ⟨ls ++ ls', k, hk, ?_, ?_⟩
  · rw [Lay.mutsL_append, (bare_of_all hb).2]; exact h1
  · rw [List.append_assoc]; exact hc.append_plain h2 ho hb

/-! ### Lists of parts -/

section
variable {l : Lang} {opt : Bool}

theorem traverseL_step : (ps : List Src) → (∀ p ∈ ps, Visited l opt p) → (off : Nat) →
    (near : Bool) → Src.LaidL off near ps → (c : Ctx) → (n : NodeInfo) → (i : Nat) →
    Step off near (Src.strL ps) (Src.constsL off ps) (traverseL l opt c n i (Src.nodesL ps))
  | [], _, off, near, _, c, n, i => by
    refine Step.silent (Silent.skip fun st => ?_) (Lay.Cov.nil off) (by simp)
    simp [Src.nodesL, traverseL]
  | .tok t :: ps, hv, off, near, h, c, n, i => by
    have ih := traverseL_step ps (fun p hp => hv p (List.mem_cons_of_mem _ hp)) _ _ h.2 c n i
    have h1 : t ≠ [] := h.1
    refine Step.after_plain (Src.plain_cov (.tok t) off h.1) (Src.plain_bare _) ?_ rfl
    have h0 : t.isEmpty = false := by cases t <;> simp_all
    show Step (off + t.length) (near && t.isEmpty) _ _ (traverseL l opt c n i ([] ++ Src.nodesL ps))
    rw [h0, Bool.and_false]
    exact ih
  | .quiet m ls :: ps, hv, off, near, h, c, n, i => by
    have ih := traverseL_step ps (fun p hp => hv p (List.mem_cons_of_mem _ hp)) _ _ h.2 c n (i + 1)
    have hs : Silent (traverse l opt (c.enter n i) m) := by
      rcases h.1.1 with h | h
      · exact silent_traverse l opt m _ h
      · exact silent_constantOnly l opt m _ h
    refine Step.after_plain (Src.plain_cov (.quiet m ls) off h.1) (Src.plain_bare _) ?_ rfl
    intro st hm
    obtain ⟨ls', h1, h2, h3⟩ := ih _ (hs st hm).1
    refine ⟨ls', Adds.congr ?_ ((hs st hm).seq h1), h2, h3⟩
    simp [Src.nodesL, Src.nodes, traverseL]
  | .node j qs :: ps, hv, off, near, h, c, n, i => by
    have ih := traverseL_step ps (fun p hp => hv p (List.mem_cons_of_mem _ hp)) _ _ h.2.2 c n (i + 1)
    have hp := (hv _ List.mem_cons_self).trav off (c.enter n i) _ h.2.1 rfl
    have hn : near = false := h.1
    subst hn
    refine Step.congr ?_ (hp.seq ih rfl (by simp) (by simp))
    funext st
    simp [Src.nodesL, Src.nodes, traverseL]

theorem nodesL_ne {p : Src} {ps : List Src} (h : endsInItem (p :: ps) = true) :
    Src.nodesL (p :: ps) ≠ [] := by
  induction ps generalizing p with
  | nil =>
    cases p with
    | tok => simp [endsInItem] at h
    | quiet => simp [Src.nodesL, Src.nodes]
    | node => simp [Src.nodesL, Src.nodes]
  | cons q qs ih =>
    rw [Src.nodesL]
    have := ih (p := q) (by simpa [endsInItem] using h)
    simp [this]

theorem laidL_head {p : Src} {ps : List Src} {off near} (h : Src.LaidL off near (p :: ps)) :
    p.Laid off ∧ ∃ near', Src.LaidL (off + p.str.length) near' ps := by
  cases p with
  | tok => exact ⟨h.1, _, h.2⟩
  | quiet => exact ⟨h.1, _, h.2⟩
  | node => exact ⟨h.2.1, _, h.2.2⟩

theorem nodes_cases (p : Src) : p.nodes = [] ∨ ∃ n, p.nodes = [n] := by
  cases p <;> simp [Src.nodes]

theorem traverseLast_cons (c : Ctx) (n : NodeInfo) (i : Nat) (k : Node) (ks : List Node) (h : ks ≠ []) :
    traverseLast l opt c n i (k :: ks) = traverseLast l opt c n (i + 1) ks := by
  funext st
  cases ks with
  | nil => exact absurd rfl h
  | cons k' ks => simp [traverseLast]

theorem blockLast_cons (c : Ctx) (n : NodeInfo) (i : Nat) (k : Node) (ks : List Node) (h : ks ≠ []) :
    blockLast l opt c n i (k :: ks) = blockLast l opt c n (i + 1) ks := by
  funext st
  cases ks with
  | nil => exact absurd rfl h
  | cons k' ks => simp [blockLast]

theorem endsInItem_tail {p q : Src} {ps : List Src} (h : endsInItem (p :: q :: ps) = true) :
    endsInItem (q :: ps) = true := by
  simpa [endsInItem] using h

theorem endsInItem_last {p : Src} (h : endsInItem [p] = true) :
    p.mayBeItem = true ∧ ∃ n, p.nodes = [n] := by
  cases p <;> simp_all [endsInItem, Src.mayBeItem, Src.nodes]

theorem traverseLast_step : (ps : List Src) → (∀ p ∈ ps, Visited l opt p) → (off : Nat) →
    (near : Bool) → Src.LaidL off near ps → endsInItem ps = true → (c : Ctx) → (n : NodeInfo) →
    (i : Nat) →
    Step off false (Src.strL ps) (Src.constsL off ps) (traverseLast l opt c n i (Src.nodesL ps))
  | [], _, off, near, _, _, c, n, i => by
    refine Step.silent (Silent.skip fun st => ?_) (Lay.Cov.nil off) (by simp)
    simp [Src.nodesL, traverseLast]
  | [p], hv, off, near, h, he, c, n, i => by
    obtain ⟨-, k, hk⟩ := endsInItem_last he
    have := (hv p List.mem_cons_self).trav off (c.enter n i) k (laidL_head h).1 hk
    simp only [Src.strL, Src.constsL, Src.nodesL, List.append_nil, hk]
    refine Step.congr ?_ this
    funext st
    rw [traverseLast]
  | p :: q :: ps, hv, off, near, h, he, c, n, i => by
    obtain ⟨h1, near', h2⟩ := laidL_head h
    have he' := endsInItem_tail he
    have ih := fun i => traverseLast_step (q :: ps) (fun p hp => hv p (List.mem_cons_of_mem _ hp)) _ _
      h2 he' c n i
    have hc := Src.plain_cov p off h1
    rw [Src.strL, Src.constsL, Src.nodesL]
    refine Step.after_plain hc (Src.plain_bare p) ?_ rfl
    rcases nodes_cases p with hp | ⟨k, hp⟩
    · rw [hp]; exact ih i
    · rw [hp, List.cons_append, List.nil_append, traverseLast_cons _ _ _ _ _ (nodesL_ne he')]
      exact ih (i + 1)

theorem blockLast_step : (ps : List Src) → (∀ p ∈ ps, Visited l opt p) → (off : Nat) →
    (near : Bool) → Src.LaidL off near ps → endsInItem ps = true → (c : Ctx) → (n : NodeInfo) →
    (i : Nat) →
    ItemStep off (itemExt.lastExt ps) (Src.strL ps) (Src.constsL off ps)
      (blockLast l opt c n i (Src.nodesL ps))
  | [], _, off, near, _, _, c, n, i => by
    refine Step.item (Step.silent (Silent.skip fun st => ?_) (Lay.Cov.nil off) (by simp))
    simp [Src.nodesL, blockLast]
  | [p], hv, off, near, h, he, c, n, i => by
    obtain ⟨hm, k, hk⟩ := endsInItem_last he
    have := (hv p List.mem_cons_self).item off (c.enter n i) k (laidL_head h).1 hk hm
    simp only [Src.strL, Src.constsL, Src.nodesL, List.append_nil, hk, itemExt.lastExt]
    have e : blockLast l opt c n i [k] = blockItem l opt (c.enter n i) k := by
      funext st
      rw [blockLast]
    rw [e]
    exact this
  | p :: q :: ps, hv, off, near, h, he, c, n, i => by
    obtain ⟨h1, near', h2⟩ := laidL_head h
    have he' := endsInItem_tail he
    have ih := fun i => blockLast_step (q :: ps) (fun p hp => hv p (List.mem_cons_of_mem _ hp)) _ _
      h2 he' c n i
    have hc := Src.plain_cov p off h1
    rw [Src.strL, Src.constsL, Src.nodesL, itemExt.lastExt]
    refine ItemStep.after_plain hc (Src.plain_bare p) ?_ rfl
    rcases nodes_cases p with hp | ⟨k, hp⟩
    · rw [hp]; exact ih i
    · rw [hp, List.cons_append, List.nil_append, blockLast_cons _ _ _ _ _ (nodesL_ne he')]
      exact ih (i + 1)

theorem laidB_ext {ps : List Src} {off near ext} (h : Src.LaidB off near ext ps) :
    ext ≤ (Src.strL ps).length := by
  match ps with
  | [] => simp only [Src.LaidB] at h; simp [h]
  | .tok t :: ps => simp only [Src.LaidB] at h; simp [Src.strL, Src.str]; omega
  | .quiet _ _ :: ps => simp only [Src.LaidB] at h; simp [h.1]
  | .node _ _ :: ps => simp only [Src.LaidB] at h; simp [h.1]

theorem silent_quietItem (m : Node) (c : Ctx) (h : m.still = true ∨ m.constantOnly = true)
    (hi : m.stillItem = true) : Silent (blockItem l opt c m) := by
  rcases h with h | h
  · exact silent_blockItem l opt m c h hi
  · match m with
    | .decl d ks => exact Silent.skip fun st => by rw [blockItem]; simp
    | .other k ks => exact Silent.skip fun st => by rw [blockItem]; simp
    | .stmt s ks =>
      have hs := silent_constantOnly l opt (.stmt s ks) c h
      obtain ⟨e, hk⟩ : ∃ e, s.kind = .expr e := by
        simp only [Node.constantOnly] at h
        cases hk : s.kind <;> simp only [hk] at h <;> first | exact ⟨_, rfl⟩ | cases h
      have hr : removal opt s = [] := by
        simp only [Node.stillItem, Bool.or_eq_true, Option.isNone_iff_eq_none, beq_iff_eq, hk] at hi
        rcases hi with hi | hi
        · exact removal_unplaced hi opt
        · cases hi
      have e : blockItem l opt c (.stmt s ks) = fun st => if pointless opt s then st else
          st.inChild fun st => traverse l opt c (.stmt s ks) st := by
        funext st
        rw [blockItem]
        simp only [hk, hr, add_nil]
        have : traverse l opt c (.stmt s ks) = stmtStep opt c s ks
            (fun c st => traverseL l opt c (.stmt s) 0 ks st)
            (fun c st => traverseLast l opt c (.stmt s) 0 ks st)
            (fun c st => blockItems l opt c (.stmt s) 0 ks st) := by
          funext st; rw [traverse]
        rw [this]
      rw [e]
      split
      · exact Silent.skip fun _ => rfl
      · exact hs.inChild

theorem blockItems_step : (ps : List Src) → (∀ p ∈ ps, Visited l opt p) → (off : Nat) →
    (near : Bool) → (ext : Nat) → Src.LaidB off near ext ps → (k : Nat) → k ≤ ext → (c : Ctx) →
    (n : NodeInfo) → (i : Nat) →
    Step (off + k) near ((Src.strL ps).drop k) (Src.constsL off ps)
      (blockItems l opt c n i (Src.nodesL ps))
  | [], _, off, near, ext, _, k, hk, c, n, i => by
    have : (Src.strL []).drop k = [] := by simp [Src.strL]
    rw [this]
    refine Step.silent (Silent.skip fun st => ?_) (Lay.Cov.nil _) (by simp)
    simp [Src.nodesL, blockItems]
  | .tok t :: ps, hv, off, near, ext, h, k, hk, c, n, i => by
    have ih := blockItems_step ps (fun p hp => hv p (List.mem_cons_of_mem _ hp)) _ _ _ h.2.2 0
      (Nat.le_refl 0) c n i
    have hle : ext ≤ t.length := h.2.1
    have ht : t ≠ [] := h.1
    rw [Nat.add_zero, List.drop_zero] at ih
    have e : (Src.strL (.tok t :: ps)).drop k = t.drop k ++ Src.strL ps := by
      rw [Src.strL, Src.str, List.drop_append_of_le_length (by omega)]
    rw [e]
    show Step _ _ _ ([] ++ Src.constsL (off + t.length) ps) (blockItems l opt c n i ([] ++ Src.nodesL ps))
    by_cases hkt : k = t.length
    · have hd : t.drop k = [] := by rw [hkt]; simp
      rw [hd, List.nil_append, List.nil_append, hkt]
      have : ext = t.length := by omega
      simpa [this] using ih
    · have hd : t.drop k ≠ [] := by
        intro h0
        have := congrArg List.length h0
        simp only [List.length_drop, List.length_nil] at this
        omega
      have hcov : Lay.Cov (off + k) (t.drop k) [] [.text (t.drop k)] := by
        have := (Lay.Cov.nil (off + k + (t.drop k).length)).text rfl hd
        rwa [List.append_nil] at this
      refine Step.after_plain hcov (by simp [Lay.isNode, Lay.muts]) ?_ rfl
      have h0 : (t.drop k).isEmpty = false := by simpa using hd
      rw [h0, Bool.and_false]
      have ho : off + k + (t.drop k).length = off + t.length := by simp; omega
      rw [ho]
      intro st hm
      obtain ⟨ls, h1, h2, -⟩ := ih st hm
      exact ⟨ls, h1, h2, by simp⟩
  | .quiet m ls :: ps, hv, off, near, ext, h, k, hk, c, n, i => by
    have ih := blockItems_step ps (fun p hp => hv p (List.mem_cons_of_mem _ hp)) _ _ _ h.2.2.2 0
      (Nat.le_refl 0) c n (i + 1)
    rw [Nat.add_zero, List.drop_zero] at ih
    have : k = 0 := by have := h.1; omega
    subst this
    have hs : Silent (blockItem l opt (c.enter n i) m) := silent_quietItem m _ h.2.1.1 h.2.2.1
    rw [Nat.add_zero, List.drop_zero]
    refine Step.after_plain (Src.plain_cov (.quiet m ls) off h.2.1) (Src.plain_bare _) ?_ rfl
    intro st hm
    obtain ⟨ls', h1, h2, h3⟩ := ih _ (hs st hm).1
    refine ⟨ls', Adds.congr ?_ ((hs st hm).seq h1), h2, h3⟩
    simp [Src.nodesL, Src.nodes, blockItems]
  | .node j qs :: ps, hv, off, near, ext, h, k, hk, c, n, i => by
    obtain ⟨h1, h2, h3, h4⟩ := h
    have : k = 0 := by omega
    subst this
    subst h2
    have hi := (hv _ List.mem_cons_self).item off (c.enter n i) _ h3 rfl rfl
    rw [Nat.add_zero, List.drop_zero]
    intro st hm
    obtain ⟨ls, k, hk', ha, hc⟩ := hi (Src.strL ps) (laidB_ext h4) st hm
    obtain ⟨ls', ha', hc', hb'⟩ := blockItems_step ps (fun p hp => hv p (List.mem_cons_of_mem _ hp))
      _ _ _ h4 k hk' c n (i + 1) _ ha.1
    refine ⟨ls ++ ls', ?_, ?_, by simp⟩
    · rw [Lay.mutsL_append]
      refine Adds.congr ?_ (ha.seq ha')
      simp [Src.nodesL, Src.nodes, blockItems]
    · have hl := laidB_ext h4
      have := hc.append hc' (by
        simp only [List.length_append, List.length_take, Src.str]
        omega) (hb' rfl)
      rw [List.append_assoc, List.take_append_drop] at this
      exact this

/-! ### Expressions -/

theorem Step.near {off t cs f} {near : Bool} (h : Step off near t cs f) : Step off false t cs f := by
  intro st hm
  obtain ⟨ls, h1, h2, -⟩ := h st hm
  exact ⟨ls, h1, h2, by simp⟩

/-- White space in front, if any. -/
def gap (g : Text) (ls : List Lay) : List Lay := if g = [] then ls else .text g :: ls

theorem gap_muts (g : Text) (ls : List Lay) : Lay.mutsL (gap g ls) = Lay.mutsL ls := by
  unfold gap
  split
  · rfl
  · simp [Lay.mutsL, Lay.muts]

theorem gap_cov {off off' g t cs ls} (h : Lay.Cov off' t cs ls) (ho : off' = off + g.length) :
    Lay.Cov off (g ++ t) cs (gap g ls) := by
  unfold gap
  split
  · rename_i hg
    subst hg
    simpa [ho] using h
  · exact h.text ho ‹_›

/-- White space after, if any. -/
def gapAfter (g : Text) (ls : List Lay) : List Lay := if g = [] then ls else ls ++ [.text g]

theorem gapAfter_muts (g : Text) (ls : List Lay) : Lay.mutsL (gapAfter g ls) = Lay.mutsL ls := by
  unfold gapAfter
  split
  · rfl
  · simp [Lay.mutsL_append, Lay.mutsL, Lay.muts]

theorem gapAfter_cov {off g t cs ls} (h : Lay.Cov off t cs ls) :
    Lay.Cov off (t ++ g) cs (gapAfter g ls) := by
  unfold gapAfter
  split
  · rename_i hg
    subst hg
    simpa using h
  · have := (Lay.Cov.nil (off + t.length + g.length)).text rfl ‹g ≠ []›
    rw [List.append_nil] at this
    simpa using h.append this rfl rfl

theorem Lay.Cov.single {off t cs} {x : Lay} (h1 : x.src = t) (h2 : x.consts off = cs)
    (h3 : x.Fits off) (h4 : x.Apart) : Lay.Cov off t cs [x] := by
  refine ⟨?_, ?_, ⟨h3, trivial⟩, rfl, ⟨h4, trivial⟩⟩
  · simp [Lay.srcL, h1]
  · simp [Lay.constsL, h2]

/-- A piece around pieces, for the replacement of an expression. -/
theorem Lay.Cov.expr {off t cs ls} (s : ExprSite) (h : Lay.Cov off t cs ls) (ht : t ≠ [])
    (hs : s.span = ⟨off, off + t.length⟩) : Lay.Cov off t cs [.expr s ls] :=
  Lay.Cov.single h.src h.consts ⟨by rw [h.src]; exact hs, h.fits⟩ ⟨h.ne ht, h.spaced, h.apart⟩

/-- An operand with a place in the file. -/
theorem Src.Is.placed {r : Role} {p : Src} (h : p.Is r) {off : Nat} (hl : p.Laid off) :
    ∃ s e n, p.nodes = [n] ∧ n.expr? = some (s, e) ∧ s.role = r ∧
      ∀ sp, s.range = some sp → sp = ⟨off, off + p.str.length⟩ ∧ p.str ≠ [] := by
  obtain ⟨s, e, qs, rfl, hk, hr⟩ := h
  refine ⟨s, e, .stmt s (Src.nodesL qs), rfl, by simp [Node.expr?, hk], hr, fun sp hsp => ?_⟩
  obtain ⟨hp, -⟩ := hl.1
  rcases hp with hp | ⟨hp, hlen, -⟩
  · rw [hp] at hsp; cases hsp
  · rw [hp] at hsp
    injection hsp with hsp
    exact ⟨hsp.symm, List.length_pos_iff.1 hlen⟩

theorem handleExpr_form {opt above s sp e t ks} :
    handleExpr opt above s sp e t ks = [] ∨
      handleExpr opt above s sp e t ks = [.expr (exprSite above s sp e t)] := by
  unfold handleExpr
  repeat' split
  all_goals first
    | exact .inl rfl
    | exact .inr rfl

theorem handleUnary_form {opt s sp e t op ks} :
    handleUnary opt s sp e t op ks = [] ∨
      ∃ s' e' sp' site, childExpr .operand ks = some (s', e') ∧ s'.range = some sp' ∧
        handleUnary opt s sp e t op ks = [.un site] ∧ site.op = op ∧ site.opOff = e.opOff ∧
        site.span = sp := by
  unfold handleUnary
  split
  · exact .inl rfl
  · rename_i s' e' hc
    split
    · rename_i x y sp' t' hr ht
      split
      · exact .inl rfl
      · split
        · exact .inl rfl
        · unfold UnSite.handle
          split
          · exact .inl rfl
          · exact .inr ⟨s', e', sp', _, hc, hr, rfl, rfl, rfl, rfl⟩
    · exact .inl rfl

theorem handleBinary_form {opt s sp e t op ks} :
    handleBinary opt s sp e t op ks = [] ∨
      ∃ sl el sr er pl pr site, childExpr .lhs ks = some (sl, el) ∧
        childExpr .rhs ks = some (sr, er) ∧ sl.range = some pl ∧ sr.range = some pr ∧
        handleBinary opt s sp e t op ks = [.bin site] ∧ site.op = op ∧ site.opOff = e.opOff ∧
        site.span = sp ∧ site.lhsSpan = pl ∧ site.rhsSpan = pr := by
  unfold handleBinary
  split
  · rename_i sl el sr er hl hr
    split
    · rename_i pl pr tl tr h1 h2 h3 h4
      split
      · exact .inl rfl
      · split
        · exact .inl rfl
        · unfold BinSite.handle
          split
          · exact .inl rfl
          · exact .inr ⟨sl, el, sr, er, pl, pr, _, hl, hr, h1, h2, rfl, rfl, rfl, rfl, rfl, rfl⟩
    · exact .inl rfl
  · exact .inl rfl

/-- The children of an expression and the mutation of its operator. -/
theorem op_step {s : AStmt} {e : ExprFacts} {t : BTy} {ps : List Src} {off : Nat}
    (hv : ∀ p ∈ ps, Visited l opt p) (hl : Src.LaidL off false ps)
    (ho : OperatorPlaced off e ps) (c : Ctx) (n : NodeInfo)
    (st : VState) (hm : st.cur.muts = []) :
    ∃ ms ls, Adds (traverseL l opt c n 0 (Src.nodesL ps)) st ms ∧
      Lay.mutsL ls = ms ++ handleOp opt s ⟨off, off + (Src.strL ps).length⟩ e t (Src.nodesL ps) ∧
      Lay.Cov off (Src.strL ps) (Src.constsL off ps) ls := by
  have plain : handleOp opt s ⟨off, off + (Src.strL ps).length⟩ e t (Src.nodesL ps) = [] →
      ∃ ms ls, Adds (traverseL l opt c n 0 (Src.nodesL ps)) st ms ∧
        Lay.mutsL ls = ms ++ handleOp opt s ⟨off, off + (Src.strL ps).length⟩ e t (Src.nodesL ps) ∧
        Lay.Cov off (Src.strL ps) (Src.constsL off ps) ls := by
    intro h
    obtain ⟨ls, h1, h2, -⟩ := traverseL_step ps hv off false hl c n 0 st hm
    exact ⟨_, ls, h1, by rw [h, List.append_nil], h2⟩
  cases hc : e.cls
  case unary op =>
    have heq : handleOp opt s ⟨off, off + (Src.strL ps).length⟩ e t (Src.nodesL ps)
        = handleUnary opt s ⟨off, off + (Src.strL ps).length⟩ e t op (Src.nodesL ps) := by
      simp [handleOp, hc]
    rw [heq] at plain ⊢
    rcases handleUnary_form (opt := opt) (s := s) (sp := ⟨off, off + (Src.strL ps).length⟩) (e := e)
      (t := t) (op := op) (ks := Src.nodesL ps) with h | ⟨s', e', sp', site, hch, hr, hu, hop, hoff, hsp⟩
    · exact plain h
    · rw [hu]
      simp only [OperatorPlaced, hc] at ho
      rcases ho with ho | ho
      · split at ho
        · obtain ⟨g, a, rfl, ha, hoo⟩ := ho
          have hla : a.Laid (off + (op.str ++ g).length) := (laidL_head hl.2).1
          obtain ⟨sa, ea, na, hna, -, -, -⟩ := ha.placed hla
          obtain ⟨ls, h1, h2, -⟩ := (hv a (by simp)).trav _ (c.enter n 0) na hla hna st hm
          refine ⟨Lay.mutsL ls, [.pre site (gap g ls)], ?_, ?_, ?_⟩
          · refine Adds.congr ?_ h1
            simp [Src.nodesL, hna, Src.nodes, traverseL]
          · simp [Lay.mutsL, Lay.muts, gap_muts]
          · have hg := gap_cov (off := off + op.str.length) (g := g) h2 (by simp; omega)
            refine Lay.Cov.single ?_ ?_ ?_ ?_
            · simp [Lay.src, hg.src, hop, Src.strL, Src.str]
            · simp only [Lay.consts, hop, hg.consts]
              simp [Src.constsL, Src.consts, Src.str]
            · refine ⟨by rw [hoff, hoo], ?_, by rw [hop]; exact hg.fits⟩
              rw [hsp, hg.src, hop]
              simp [Src.strL, Src.str]
              omega
            · exact ⟨hg.spaced, hg.apart⟩
        · obtain ⟨a, g, rfl, ha, hoo⟩ := ho
          have hla : a.Laid off := (laidL_head hl).1
          obtain ⟨sa, ea, na, hna, -, -, -⟩ := ha.placed hla
          obtain ⟨ls, h1, h2, -⟩ := (hv a (by simp)).trav _ (c.enter n 0) na hla hna st hm
          refine ⟨Lay.mutsL ls, [.post site (gapAfter g ls)], ?_, ?_, ?_⟩
          · refine Adds.congr ?_ h1
            simp [Src.nodesL, hna, Src.nodes, traverseL]
          · simp [Lay.mutsL, Lay.muts, gapAfter_muts]
          · have hg := gapAfter_cov (g := g) h2
            refine Lay.Cov.single ?_ ?_ ?_ ?_
            · simp [Lay.src, hg.src, hop, Src.strL, Src.str]
            · simp only [Lay.consts, hg.consts]
              simp [Src.constsL, Src.consts]
            · refine ⟨by rw [hoff, hoo, hg.src]; simp; omega, ?_, hg.fits⟩
              rw [hsp, hg.src, hop]
              simp [Src.strL, Src.str]
              omega
            · exact ⟨hg.spaced, hg.apart⟩
      · have := ho _ hch
        rw [this] at hr
        cases hr
  case binary op =>
    have heq : handleOp opt s ⟨off, off + (Src.strL ps).length⟩ e t (Src.nodesL ps)
        = handleBinary opt s ⟨off, off + (Src.strL ps).length⟩ e t op (Src.nodesL ps) := by
      simp [handleOp, hc]
    rw [heq] at plain ⊢
    rcases handleBinary_form (opt := opt) (s := s) (sp := ⟨off, off + (Src.strL ps).length⟩) (e := e)
      (t := t) (op := op) (ks := Src.nodesL ps) with h |
        ⟨sl, el, sr, er, pl, pr, site, hcl, hcr, hrl, hrr, hu, hop, hoff, hsp, hsl, hsr⟩
    · exact plain h
    · rw [hu]
      simp only [OperatorPlaced, hc] at ho
      rcases ho with ⟨a, g1, g2, b, rfl, ha, hb, hoo⟩ | ho | ho
      · have hla : a.Laid off := (laidL_head hl).1
        obtain ⟨near', hl'⟩ := (laidL_head hl).2
        have hlb : b.Laid (off + a.str.length + (g1 ++ op.str ++ g2).length) := (laidL_head hl'.2).1
        obtain ⟨sa, ea, na, hna, hea, hra, hpa⟩ := ha.placed hla
        obtain ⟨sb, eb, nb, hnb, heb, hrb, hpb⟩ := hb.placed hlb
        have hks : Src.nodesL [a, .tok (g1 ++ op.str ++ g2), b] = [na, nb] := by
          simp [Src.nodesL, hna, hnb, Src.nodes]
        rw [hks] at hcl hcr ⊢
        have e1 : (sl, el) = (sa, ea) := by
          simpa [childExpr, hea, hra] using hcl.symm
        have e2 : (sr, er) = (sb, eb) := by
          simpa [childExpr, hea, hra, heb, hrb] using hcr.symm
        injection e1 with e1 _
        injection e2 with e2 _
        subst e1 e2
        obtain ⟨hpl, hnl⟩ := hpa pl hrl
        obtain ⟨hpr, hnr⟩ := hpb pr hrr
        obtain ⟨lsa, h1, h2, -⟩ := (hv a (by simp)).trav _ (c.enter n 0) na hla hna st hm
        obtain ⟨lsb, h1', h2', -⟩ := (hv b (by simp)).trav _ (c.enter n 1) nb hlb hnb _ h1.1
        refine ⟨Lay.mutsL lsa ++ Lay.mutsL lsb, [.bin site lsa g1 g2 lsb], ?_, ?_, ?_⟩
        · refine Adds.congr ?_ (h1.seq h1')
          simp [traverseL]
        · simp [Lay.mutsL, Lay.muts]
        · have hob : off + a.str.length + (g1 ++ op.str ++ g2).length
              = off + a.str.length + g1.length + op.str.length + g2.length := by
            simp; omega
          rw [hob] at h2' hpr
          refine Lay.Cov.single ?_ ?_ ?_ ?_
          · simp [Lay.src, h2.src, h2'.src, hop, Src.strL, Src.str]
          · simp only [Lay.consts, hop, h2.src, h2.consts, h2'.consts]
            simp [Src.constsL, Src.consts, Src.str, Nat.add_assoc]
          · refine ⟨by rw [hsl, hpl, h2.src], by rw [hoff, hoo, h2.src], ?_, ?_, h2.fits, ?_⟩
            · rw [hsr, hpr, h2.src, h2'.src, hop]
            · rw [hsp, h2.src, h2'.src, hop]
              simp [Src.strL, Src.str]
              omega
            · rw [h2.src, hop]
              exact h2'.fits
          · exact ⟨h2.ne hnl, h2'.ne hnr, h2.spaced, h2'.spaced, h2.apart, h2'.apart⟩
      · have := ho _ hcl
        rw [this] at hrl
        cases hrl
      · have := ho _ hcr
        rw [this] at hrr
        cases hrr
  all_goals exact plain (by simp [handleOp, hc])

theorem visitExpr_form {c : Ctx} {locs s e ks} :
    visitExpr opt c locs s e ks = [] ∨ ∃ sp t, s.range = some sp ∧
      visitExpr opt c locs s e ks = handleOp opt s sp e t ks ++ handleExpr opt c.above s sp e t ks := by
  unfold visitExpr
  repeat' split
  all_goals first
    | exact .inl rfl
    | exact .inr ⟨_, _, ‹_›, rfl⟩

/-- An expression. -/
theorem expr_step {s : AStmt} {e : ExprFacts} {ps : List Src} {off : Nat}
    (hv : ∀ p ∈ ps, Visited l opt p) (hl : Src.LaidL off false ps) (hk : s.kind = .expr e)
    (hp : StmtPlaced off (Src.strL ps).length s ps) (c : Ctx) (n : NodeInfo) :
    Step off false (Src.strL ps) (Src.constsL off ps) (fun st => st.inChild fun st =>
      (traverseL l opt c n 0 (Src.nodesL ps) st).add c.pos
        (visitExpr opt c (traverseL l opt c n 0 (Src.nodesL ps) st).locs s e (Src.nodesL ps))) := by
  intro st hm
  let st0 : VState := { st with cur := .node [] [] }
  let V := visitExpr opt c (traverseL l opt c n 0 (Src.nodesL ps) st0).locs s e (Src.nodesL ps)
  have wrap : ∀ ms, Adds (traverseL l opt c n 0 (Src.nodesL ps)) st0 ms →
      Adds (fun st => st.inChild fun st =>
        (traverseL l opt c n 0 (Src.nodesL ps) st).add c.pos
          (visitExpr opt c (traverseL l opt c n 0 (Src.nodesL ps) st).locs s e (Src.nodesL ps))) st
        (ms ++ V) := by
    intro ms hms
    refine Adds.congr ?_ (Adds.inChild hm c.pos V hms)
    rfl
  rcases visitExpr_form (opt := opt) (c := c)
    (locs := (traverseL l opt c n 0 (Src.nodesL ps) st0).locs) (s := s) (e := e)
    (ks := Src.nodesL ps) with h | ⟨sp, t, hr, h⟩
  · obtain ⟨ls, h1, h2, -⟩ := traverseL_step ps hv off false hl c n 0 st0 rfl
    refine ⟨ls, ?_, h2, by simp⟩
    have := wrap _ h1
    simpa [V, h] using this
  · rcases hp with hp | ⟨hp, hlen, -, ho⟩
    · rw [hp] at hr; cases hr
    · rw [hp] at hr
      injection hr with hr
      subst hr
      obtain ⟨ms, ls, h1, h2, h3⟩ := op_step (s := s) (t := t) hv hl (ho e hk) c n st0 rfl
      have hw := wrap _ h1
      simp only [V, h] at hw
      rw [← List.append_assoc, ← h2] at hw
      rcases handleExpr_form (opt := opt) (above := c.above) (s := s)
        (sp := ⟨off, off + (Src.strL ps).length⟩) (e := e) (t := t) (ks := Src.nodesL ps) with hx | hx
      · rw [hx, List.append_nil] at hw
        exact ⟨ls, hw, h3, by simp⟩
      · rw [hx] at hw
        refine ⟨[.expr (exprSite c.above s ⟨off, off + (Src.strL ps).length⟩ e t) ls], ?_,
          h3.expr _ (List.length_pos_iff.1 hlen) rfl, by simp⟩
        simpa [Lay.mutsL, Lay.muts] using hw

/-! ### Nodes -/

theorem stmtStep_step {s : AStmt} {ps : List Src} {off : Nat} (hv : ∀ p ∈ ps, Visited l opt p)
    (h : Src.Laid off (.node (.stmt s) ps)) (c : Ctx) :
    Step off false (Src.strL ps) (Src.constsL off ps)
      (stmtStep opt c s (Src.nodesL ps)
        (fun c st => traverseL l opt c (.stmt s) 0 (Src.nodesL ps) st)
        (fun c st => traverseLast l opt c (.stmt s) 0 (Src.nodesL ps) st)
        (fun c st => blockItems l opt c (.stmt s) 0 (Src.nodesL ps) st)) := by
  by_cases hs : skipStmt c.above s = true
  · refine Step.silent (Silent.skip fun st => ?_) (Src.plain_cov (.node (.stmt s) ps) off h)
      (Src.plain_bare _)
    simp [stmtStep, hs]
  · have hs : skipStmt c.above s = false := by simpa using hs
    obtain ⟨⟨hp, hend⟩, hl⟩ := h
    have hblock : s.kind = .compound → Src.LaidB off false 0 ps := by
      intro hk
      rcases hl with ⟨hb, -⟩ | ⟨-, hl⟩
      · simp [NodeInfo.isBlock, hk] at hb
      · exact hl
    have hlist : s.kind ≠ .compound → Src.LaidL off false ps := by
      intro hk
      rcases hl with ⟨-, hl⟩ | ⟨hb, -⟩
      · exact hl
      · simp [NodeInfo.isBlock, hk] at hb
    have hst : stmtStep opt c s (Src.nodesL ps)
        (fun c st => traverseL l opt c (.stmt s) 0 (Src.nodesL ps) st)
        (fun c st => traverseLast l opt c (.stmt s) 0 (Src.nodesL ps) st)
        (fun c st => blockItems l opt c (.stmt s) 0 (Src.nodesL ps) st) = fun st => st.inChild (fun st =>
        match s.kind with
        | .compound => blockItems l opt c (.stmt s) 0 (Src.nodesL ps) st
        | .case_ => traverseLast l opt c (.stmt s) 0 (Src.nodesL ps) st
        | .expr e => (traverseL l opt c (.stmt s) 0 (Src.nodesL ps) st).add c.pos
            (visitExpr opt c (traverseL l opt c (.stmt s) 0 (Src.nodesL ps) st).locs s e (Src.nodesL ps))
        | _ => traverseL l opt c (.stmt s) 0 (Src.nodesL ps) st) := by
      funext st
      simp only [stmtStep, hs]
      rfl
    rw [hst]
    cases hkind : s.kind
    case compound =>
      have := blockItems_step ps hv off false 0 (hblock hkind) 0 (Nat.le_refl 0) c (.stmt s) 0
      rw [Nat.add_zero, List.drop_zero] at this
      exact this.inChild
    case case_ =>
      exact (traverseLast_step ps hv off false (hlist (by simp [hkind])) (hend (.inl hkind)) c (.stmt s)
        0).inChild
    case expr e => exact expr_step hv (hlist (by simp [hkind])) hkind hp c (.stmt s)
    all_goals exact (traverseL_step ps hv off false (hlist (by simp [hkind])) c (.stmt s) 0).inChild

theorem removal_form {s : AStmt} :
    removal opt s = [] ∨ ∃ sp, s.range = some sp ∧ removal opt s = [.stmt (stmtSite s sp)] := by
  unfold removal
  repeat' split
  all_goals first
    | exact .inl rfl
    | exact .inr ⟨_, ‹_›, rfl⟩

theorem item_step {s : AStmt} {ps : List Src} {off : Nat} (hv : ∀ p ∈ ps, Visited l opt p)
    (h : Src.Laid off (.node (.stmt s) ps)) (c : Ctx) :
    ItemStep off (itemExt (.node (.stmt s) ps)) (Src.strL ps) (Src.constsL off ps)
      (blockItem l opt c (.stmt s (Src.nodesL ps))) := by
  by_cases hk : s.kind = .case_ ∨ s.kind = .default_
  · have e : blockItem l opt c (.stmt s (Src.nodesL ps)) = blockLast l opt c (.stmt s) 0 (Src.nodesL ps) := by
      funext st
      rw [blockItem]; rcases hk with hk | hk <;> simp [hk]
    have e' : itemExt (.node (.stmt s) ps) = itemExt.lastExt ps := by
      rw [itemExt]; rcases hk with hk | hk <;> simp [hk]
    rw [e, e']
    obtain ⟨⟨hp, hend⟩, hl⟩ := h
    rcases hl with ⟨-, hl⟩ | ⟨hb, -⟩
    · exact blockLast_step ps hv off false hl (hend hk) c (.stmt s) 0
    · rcases hk with hk | hk <;> simp [NodeInfo.isBlock, hk] at hb
  · have hk1 : s.kind ≠ .case_ := fun h => hk (.inl h)
    have hk2 : s.kind ≠ .default_ := fun h => hk (.inr h)
    have e' : itemExt (.node (.stmt s) ps) = match s.range with
        | some sp => s.extEnd - sp.e
        | none => 0 := by
      rw [itemExt]
      split <;> first | contradiction | rfl
    have e : blockItem l opt c (.stmt s (Src.nodesL ps)) = fun st => if pointless opt s then st else
        st.inChild fun st =>
          (stmtStep opt c s (Src.nodesL ps)
            (fun c st => traverseL l opt c (.stmt s) 0 (Src.nodesL ps) st)
            (fun c st => traverseLast l opt c (.stmt s) 0 (Src.nodesL ps) st)
            (fun c st => blockItems l opt c (.stmt s) 0 (Src.nodesL ps) st) st).add c.pos
              (removal opt s) := by
      funext st
      rw [blockItem]
      split
      · contradiction
      · contradiction
      · rfl
    rw [e]
    have hst := stmtStep_step hv h c
    split
    · exact Step.item (Step.silent (Silent.skip fun _ => rfl) (Src.plain_cov (.node (.stmt s) ps) off h)
        (Src.plain_bare _))
    · rcases removal_form (opt := opt) (s := s) with hr | ⟨sp, hsp, hr⟩
      · rw [hr]
        exact Step.item hst.inChild
      · intro after ha st hm
        obtain ⟨ls, h1, h2, -⟩ := hst { st with cur := .node [] [] } rfl
        have hw := Adds.inChild hm c.pos (removal opt s) h1
        obtain ⟨⟨hp, -⟩, -⟩ := h
        rcases hp with hp | ⟨hp, hlen, hext, -⟩
        · rw [hp] at hsp; cases hsp
        · rw [e', hsp] at ha
          rw [hp] at hsp
          injection hsp with hsp
          subst hsp
          rw [hr] at hw
          simp only at ha
          refine ⟨[.stmt (stmtSite s ⟨off, off + (Src.strL ps).length⟩) ls
            (after.take (s.extEnd - (off + (Src.strL ps).length)))],
            s.extEnd - (off + (Src.strL ps).length), ?_, ?_, ?_⟩
          · rw [e', hp]; exact Nat.le_refl _
          · rw [hr]
            simpa [Lay.mutsL, Lay.muts] using hw
          · refine Lay.Cov.single ?_ ?_ ⟨?_, ?_, h2.fits⟩ ⟨h2.ne (List.length_pos_iff.1 hlen), h2.spaced, h2.apart⟩
            · rw [Lay.src, h2.src]
            · exact h2.consts
            · rw [h2.src]; rfl
            · rw [h2.src]
              simp only [stmtSite, List.length_take]
              omega

theorem node_visited {i : NodeInfo} {ps : List Src} (hv : ∀ p ∈ ps, Visited l opt p) :
    Visited l opt (.node i ps) := by
  constructor
  · intro off c n h hn
    have hn : [i.mk (Src.nodesL ps)] = [n] := hn
    injection hn with hn _
    subst hn
    match i with
    | .decl d =>
      have hl : Src.LaidL off false ps := by
        rcases h.2 with ⟨-, h⟩ | ⟨h, -⟩
        · exact h
        · cases h
      have e : traverse l opt c (NodeInfo.mk (.decl d) (Src.nodesL ps)) = fun st =>
          if !d.isTU && !d.range.isSome then st
          else declStep l c d (fun c st => traverseL l opt c (.decl d) 0 (Src.nodesL ps) st) st := by
        funext st
        rw [NodeInfo.mk, traverse]
      have hp : ∀ f, Silent f → Step off false (Src.strL ps) (Src.constsL off ps) f := fun f hf =>
        Step.silent hf (Src.plain_cov (.node (.decl d) ps) off h) (Src.plain_bare _)
      show Step off false (Src.strL ps) (Src.constsL off ps) _
      rw [e]
      split
      · exact hp _ (Silent.skip fun _ => rfl)
      · unfold declStep
        split
        · exact hp _ (Silent.skip (noteDecl_cur l d))
        · rename_i c' hc'
          intro st hm
          obtain ⟨ls, h1, h2, h3⟩ := traverseL_step ps hv off false hl c' (.decl d) 0 (noteDecl l d st)
            (by rw [noteDecl_cur, hm])
          refine ⟨ls, ⟨?_, ?_⟩, h2, h3⟩
          · show (visitDecl d _).cur.muts = []
            rw [visitDecl_cur]; exact h1.1
          · show (visitDecl d _).cur.post.map _ = _
            rw [visitDecl_cur, h1.2, noteDecl_cur]
    | .other k =>
      have hl : Src.LaidL off false ps := by
        rcases h.2 with ⟨-, h⟩ | ⟨h, -⟩
        · exact h
        · cases h
      have e : traverse l opt c (NodeInfo.mk (.other k) (Src.nodesL ps)) = fun st =>
          if skipOther l k then st else traverseL l opt c (.other k) 0 (Src.nodesL ps) st := by
        funext st
        rw [NodeInfo.mk, traverse]
      show Step off false (Src.strL ps) (Src.constsL off ps) _
      rw [e]
      split
      · exact Step.silent (Silent.skip fun _ => rfl) (Src.plain_cov (.node (.other k) ps) off h)
          (Src.plain_bare _)
      · exact traverseL_step ps hv off false hl c (.other k) 0
    | .stmt s =>
      refine Step.congr ?_ (stmtStep_step hv h c)
      funext st
      rw [NodeInfo.mk, traverse]
  · intro off c n h hn _
    have hn : [i.mk (Src.nodesL ps)] = [n] := hn
    injection hn with hn _
    subst hn
    match i with
    | .decl d =>
      refine Step.item (Step.silent (Silent.skip fun st => ?_) (Src.plain_cov _ off h) (Src.plain_bare _))
      rw [NodeInfo.mk, blockItem]; simp
    | .other k =>
      refine Step.item (Step.silent (Silent.skip fun st => ?_) (Src.plain_cov _ off h) (Src.plain_bare _))
      rw [NodeInfo.mk, blockItem]; simp
    | .stmt s => exact item_step hv h c

theorem quiet_visited (m : Node) (ls : List (Text × Option Nat)) : Visited l opt (.quiet m ls) := by
  constructor
  · intro off c n h hn
    have hn : [m] = [n] := hn
    injection hn with hn _
    subst hn
    refine Step.silent ?_ (Src.plain_cov _ off h) (Src.plain_bare _)
    rcases h.1 with h | h
    · exact silent_traverse l opt m _ h
    · exact silent_constantOnly l opt m _ h
  · intro off c n h hn hi
    have hn : [m] = [n] := hn
    injection hn with hn _
    subst hn
    exact Step.item (Step.silent (silent_quietItem m c h.1 hi) (Src.plain_cov _ off h) (Src.plain_bare _))

mutual
theorem visited : (p : Src) → Visited l opt p
  | .tok _ => ⟨fun _ _ _ _ h => by simp [Src.nodes] at h, fun _ _ _ _ h => by simp [Src.nodes] at h⟩
  | .quiet m ls => quiet_visited m ls
  | .node _ ps => node_visited (visitedL ps)

theorem visitedL : (ps : List Src) → ∀ p ∈ ps, Visited l opt p
  | [] => by simp
  | p :: ps => by
    have h1 := visited p
    have h2 := visitedL ps
    intro q hq
    rcases List.mem_cons.1 hq with rfl | hq
    · exact h1
    · exact h2 q hq
end

end

end Dredd
