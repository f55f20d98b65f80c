/-
The edits of a tree of pieces do not get in each other's way.
-/
import Verif.Proofs.RewriteBuffer
import Verif.Proofs.Layout

namespace Dredd

/-- The edit is between two offsets. -/
def Edit.In (a b : Nat) : Edit → Prop
  | .before p _ => a ≤ p ∧ p ≤ b
  | .after p _ => a ≤ p ∧ p ≤ b
  | .replace p n _ => 0 < n ∧ a ≤ p ∧ p + n ≤ b

theorem Edit.Clear.symm {e f : Edit} (h : e.Clear false f) : f.Clear false e := by
  cases e <;> cases f <;> simp only [Edit.Clear, Bool.false_eq_true, if_false] at h ⊢ <;> omega

theorem Edit.In.clear {e f : Edit} {a b c d : Nat} (he : e.In a b) (hf : f.In c d) (h : b ≤ c) :
    e.Clear false f := by
  cases e <;> cases f <;> simp only [Edit.Clear, Edit.In, Bool.false_eq_true, if_false] at * <;> omega

theorem Edit.In.mono {e : Edit} {a b c d : Nat} (he : e.In a b) (h1 : c ≤ a) (h2 : b ≤ d) :
    e.In c d := by
  cases e <;> simp only [Edit.In] at * <;> omega

/-- Edits between two offsets that do not get in each other's way. -/
structure Orderly (es : List Edit) (a b : Nat) : Prop where
  within : ∀ e ∈ es, e.In a b
  clear : es.Pairwise (Edit.Clear false)

theorem Orderly.nil (a b : Nat) : Orderly [] a b := ⟨by simp, .nil⟩

theorem Orderly.perm {es fs : List Edit} {a b : Nat} (h : Orderly es a b) (hp : es.Perm fs) : Orderly fs a b :=
  ⟨fun e he => h.within e (hp.mem_iff.2 he), hp.pairwise h.clear fun h => h.symm⟩

theorem Orderly.append {es fs : List Edit} {a b c d : Nat} (h : Orderly es a b) (h' : Orderly fs c d)
    (hbc : b ≤ c) (hab : a ≤ c) (hbd : b ≤ d) : Orderly (es ++ fs) a d := by
  refine ⟨fun e he => ?_, List.pairwise_append.2 ⟨h.clear, h'.clear, fun e he f hf =>
    (h.within e he).clear (h'.within f hf) hbc⟩⟩
  rcases List.mem_append.1 he with he | he
  · exact (h.within e he).mono (Nat.le_refl _) hbd
  · exact (h'.within e he).mono hab (Nat.le_refl _)

theorem Orderly.notInside {es : List Edit} {a b q : Nat} (h : Orderly es a b) (hq : q ≤ a ∨ b ≤ q) :
    NotInside es q := fun p n t hp => by
  have : 0 < n ∧ a ≤ p ∧ p + n ≤ b := h.within _ hp
  omega

theorem NotInside.append {es fs : List Edit} {q : Nat} (h : NotInside es q) (h' : NotInside fs q) :
    NotInside (es ++ fs) q := fun p n t hp => by
  rcases List.mem_append.1 hp with hp | hp
  · exact h p n t hp
  · exact h' p n t hp

theorem NotInside.perm {es fs : List Edit} {q : Nat} (h : NotInside es q) (hp : es.Perm fs) :
    NotInside fs q := fun p n t hm => h p n t (hp.mem_iff.2 hm)

/-- The edit inserts text at `q`. -/
def Edit.InsertsAt (e : Edit) (q : Nat) : Prop := ∃ t, e = .before q t ∨ e = .after q t

theorem Orderly.insert {es : List Edit} {a b : Nat} (h : Orderly es a b) (ws : List Edit)
    (hw : ∀ w ∈ ws, ∃ q, w.InsertsAt q ∧ a ≤ q ∧ q ≤ b ∧ NotInside es q) : Orderly (es ++ ws) a b := by
  refine ⟨fun e he => ?_, List.pairwise_append.2 ⟨h.clear, ?_, fun e he w hwm => ?_⟩⟩
  · rcases List.mem_append.1 he with he | he
    · exact h.within e he
    · obtain ⟨q, ⟨t, rfl | rfl⟩, h1, h2, -⟩ := hw e he <;> exact ⟨h1, h2⟩
  · refine List.Pairwise.imp_of_mem (R := fun _ _ => True) (fun {x y} hx hy _ => ?_)
      (List.pairwise_of_forall fun _ _ => trivial)
    obtain ⟨q, ⟨t, rfl | rfl⟩, -⟩ := hw x hx <;> obtain ⟨q', ⟨t', rfl | rfl⟩, -⟩ := hw y hy <;>
      trivial
  · obtain ⟨q, ⟨t, rfl | rfl⟩, -, -, hn⟩ := hw w hwm <;> cases e with
    | replace p n u => exact hn p n u he
    | _ => trivial

/-- The same, in front of the last edits. -/
theorem Orderly.insertMid {A C : List Edit} {a b : Nat} (h : Orderly (A ++ C) a b) (ws : List Edit)
    (hw : ∀ w ∈ ws, ∃ q, w.InsertsAt q ∧ a ≤ q ∧ q ≤ b ∧ NotInside (A ++ C) q) :
    Orderly (A ++ ws ++ C) a b := by
  refine (h.insert ws hw).perm ?_
  rw [List.append_assoc, List.append_assoc]
  exact List.Perm.append_left _ List.perm_append_comm

theorem ExprSite.edits_shape (s : ExprSite) (l : Lang) (o : Options) (k : Nat) :
    ∀ e ∈ s.edits l o k, e.InsertsAt s.span.b ∨ e.InsertsAt s.span.e := by
  have : ∃ t u, s.edits l o k = [.before s.span.b t, .after s.span.e u] := ⟨_, _, rfl⟩
  obtain ⟨t, u, h⟩ := this
  rw [h]
  intro e he
  simp only [List.mem_cons, List.not_mem_nil, or_false] at he
  rcases he with rfl | rfl
  · exact .inl ⟨_, .inl rfl⟩
  · exact .inr ⟨_, .inr rfl⟩

theorem StmtSite.edits_shape (s : StmtSite) (o : Options) (k : Nat) :
    ∀ e ∈ s.edits o k, e.InsertsAt s.span.b ∨ e.InsertsAt s.extEnd := by
  intro e he
  unfold StmtSite.edits at he
  split at he
  · simp only [List.mem_cons, List.not_mem_nil, or_false] at he
    exact .inl ⟨_, .inl he⟩
  · simp only [List.mem_cons, List.not_mem_nil, or_false] at he
    rcases he with rfl | rfl
    · exact .inl ⟨_, .inl rfl⟩
    · exact .inr ⟨_, .inr rfl⟩

theorem UnSite.edits_shape (s : UnSite) (l : Lang) (o : Options) (k : Nat) :
    ∃ ws, s.edits l o k = replaceSymbol s.opOff s.op.str.length [] ++ ws ∧
      ∀ e ∈ ws, e.InsertsAt s.span.b ∨ e.InsertsAt s.span.e := by
  have : ∃ t u, s.edits l o k
      = replaceSymbol s.opOff s.op.str.length [] ++ [.before s.span.b t, .after s.span.e u] := ⟨_, _, rfl⟩
  obtain ⟨t, u, h⟩ := this
  refine ⟨_, h, fun e he => ?_⟩
  simp only [List.mem_cons, List.not_mem_nil, or_false] at he
  rcases he with rfl | rfl
  · exact .inl ⟨_, .inl rfl⟩
  · exact .inr ⟨_, .inr rfl⟩

/-- The offsets at which a binary operator is instrumented. -/
def BinSite.ends (s : BinSite) : List Nat :=
  [s.lhsSpan.b, s.lhsSpan.e, s.rhsSpan.b, s.rhsSpan.e, s.span.b, s.span.e]

theorem BinSite.edits_shape (s : BinSite) (l : Lang) (o : Options) (first id : Nat) :
    ∃ rs ws, (s.apply l o first id).edits = rs ++ ws ∧
      (rs = [] ∨ ∃ q, s.opOff = some q ∧ rs = [.replace q s.op.str.length t!","]) ∧
      ∀ e ∈ ws, ∃ q ∈ s.ends, e.InsertsAt q := by
  unfold BinSite.apply
  split
  · refine ⟨[], (s.applyCLogical l o first id).edits, rfl, .inl rfl, fun e he => ?_⟩
    unfold BinSite.applyCLogical wrapCall at he
    dsimp only at he
    split at he <;>
      simp only [List.mem_append, List.mem_cons, List.not_mem_nil, or_false, false_or] at he
    · rcases he with rfl | rfl
      · exact ⟨s.span.b, by simp [BinSite.ends], _, .inl rfl⟩
      · exact ⟨s.span.e, by simp [BinSite.ends], _, .inr rfl⟩
    · rcases he with ((rfl | rfl) | rfl | rfl) | rfl | rfl
      · exact ⟨s.lhsSpan.b, by simp [BinSite.ends], _, .inl rfl⟩
      · exact ⟨s.lhsSpan.e, by simp [BinSite.ends], _, .inr rfl⟩
      · exact ⟨s.rhsSpan.b, by simp [BinSite.ends], _, .inl rfl⟩
      · exact ⟨s.rhsSpan.e, by simp [BinSite.ends], _, .inr rfl⟩
      · exact ⟨s.span.b, by simp [BinSite.ends], _, .inl rfl⟩
      · exact ⟨s.span.e, by simp [BinSite.ends], _, .inr rfl⟩
  · have : ∃ t1 t2 t3 t4, s.replaceOperator l o (id - first) =
        replaceSymbol s.opOff s.op.str.length t!"," ++ [.before s.lhsSpan.b t1,
          .after s.lhsSpan.e t2, .before s.rhsSpan.b t3, .after s.rhsSpan.e t4] := ⟨_, _, _, _, rfl⟩
    obtain ⟨t1, t2, t3, t4, h⟩ := this
    refine ⟨_, _, h, ?_, fun e he => ?_⟩
    · cases h : s.opOff with
      | none => exact .inl rfl
      | some q => exact .inr ⟨q, rfl, rfl⟩
    simp only [List.mem_cons, List.not_mem_nil, or_false] at he
    rcases he with rfl | rfl | rfl | rfl
    · exact ⟨s.lhsSpan.b, by simp [BinSite.ends], _, .inl rfl⟩
    · exact ⟨s.lhsSpan.e, by simp [BinSite.ends], _, .inr rfl⟩
    · exact ⟨s.rhsSpan.b, by simp [BinSite.ends], _, .inl rfl⟩
    · exact ⟨s.rhsSpan.e, by simp [BinSite.ends], _, .inr rfl⟩

theorem Edit.replace_in (p n : Nat) (t : Text) (hn : 0 < n) : Orderly [.replace p n t] p (p + n) :=
  ⟨by simp [Edit.In, hn], List.pairwise_singleton _ _⟩

theorem perm4 {α : Type} (A B C D : List α) : ((A ++ C) ++ (B ++ D)).Perm (A ++ B ++ (C ++ D)) := by
  simp only [List.append_assoc]
  refine List.Perm.append_left _ ?_
  rw [← List.append_assoc, ← List.append_assoc]
  exact List.Perm.append_right _ List.perm_append_comm

mutual
theorem Lay.orderly (l : Lang) (o : Options) (first : Nat) : (x : Lay) → (off k : Nat) →
    x.Fits off → x.Apart → Orderly (x.edits l o first k off) off (off + x.src.length)
  | .text t, off, k, _, _ => Orderly.nil _ _
  | .const old v, off, k, _, ha => by
    have ha : old ≠ [] := ha
    have := Edit.replace_in off old.length (natDec v) (List.length_pos_iff.2 ha)
    simpa [Lay.edits, Lay.muts, Lay.consts, constEdits, editsFrom, Lay.src] using this
  | .expr s body, off, k, hf, ha => by
    have ih := Lay.orderlyL l o first body off k hf.2 ha.2.2
    have hsp : s.span = ⟨off, off + (Lay.srcL body).length⟩ := hf.1
    simp only [Lay.edits, Lay.muts, Lay.consts, Lay.src, editsFrom_snoc]
    refine Orderly.insertMid ih _ fun w hw => ?_
    simp only [Mutation.apply, ExprSite.apply] at hw
    rcases s.edits_shape l o _ w hw with hw | hw <;> rw [hsp] at hw
    · exact ⟨_, hw, Nat.le_refl _, Nat.le_add_right _ _, ih.notInside (.inl (Nat.le_refl _))⟩
    · exact ⟨_, hw, Nat.le_add_right _ _, Nat.le_refl _, ih.notInside (.inr (Nat.le_refl _))⟩
  | .stmt s body ext, off, k, hf, ha => by
    have ih := Lay.orderlyL l o first body off k hf.2.2 ha.2.2
    have hsp : s.span = ⟨off, off + (Lay.srcL body).length⟩ := hf.1
    have hee : s.extEnd = off + (Lay.srcL body).length + ext.length := hf.2.1
    have ih' : Orderly (Lay.editsL l o first k off body) off
        (off + (Lay.src (.stmt s body ext)).length) :=
      ⟨fun e he => (ih.within e he).mono (Nat.le_refl _) (by simp [Lay.src]), ih.clear⟩
    simp only [Lay.edits, Lay.muts, Lay.consts, editsFrom_snoc]
    refine Orderly.insertMid ih' _ fun w hw => ?_
    simp only [Mutation.apply, StmtSite.apply] at hw
    rcases s.edits_shape o _ w hw with hw | hw
    · rw [hsp] at hw
      exact ⟨_, hw, Nat.le_refl _, Nat.le_add_right _ _, ih.notInside (.inl (Nat.le_refl _))⟩
    · rw [hee] at hw
      exact ⟨_, hw, by omega, by simp only [Lay.src, List.length_append]; omega,
        ih.notInside (.inr (by omega))⟩
  | .pre s body, off, k, hf, ha => by
    have ih := Lay.orderlyL l o first body (off + s.op.str.length) k hf.2.2 ha.2
    have hop : s.opOff = some off := hf.1
    have hsp : s.span = ⟨off, off + s.op.str.length + (Lay.srcL body).length⟩ := hf.2.1
    have h1 := (Edit.replace_in off s.op.str.length [] (List.length_pos_iff.2 s.op.str_ne)).append ih
      (Nat.le_refl _) (by omega) (by omega)
    simp only [Lay.edits, Lay.muts, Lay.consts, editsFrom_snoc]
    obtain ⟨ws, hws, hin⟩ := s.edits_shape l o
      (first + (k + countAll l o.optimise (Lay.mutsL body)) - first)
    have : (Mutation.apply l o first (first + (k + countAll l o.optimise (Lay.mutsL body)))
        (.un s)).edits = replaceSymbol s.opOff s.op.str.length [] ++ ws := hws
    rw [this, hop]
    simp only [replaceSymbol]
    rw [← List.append_assoc (editsFrom _ _ _ _ _)]
    have hperm : ([Edit.replace off s.op.str.length []] ++
          Lay.editsL l o first k (off + s.op.str.length) body).Perm
        ((editsFrom l o first (first + k) (Lay.mutsL body) ++ [.replace off s.op.str.length []])
          ++ constEdits (Lay.constsL (off + s.op.str.length) body)) := by
      rw [Lay.editsL, ← List.append_assoc]
      exact List.Perm.append_right _ List.perm_append_comm
    have hlen : (Lay.src (.pre s body)).length = s.op.str.length + (Lay.srcL body).length := by
      simp [Lay.src]
    rw [hlen, ← Nat.add_assoc]
    refine Orderly.insertMid (h1.perm hperm) _ fun w hw => ?_
    rcases hin w hw with hw | hw <;> rw [hsp] at hw
    · exact ⟨_, hw, Nat.le_refl _, by dsimp only; omega,
        (h1.notInside (.inl (Nat.le_refl _))).perm hperm⟩
    · exact ⟨_, hw, by dsimp only; omega, Nat.le_refl _,
        (h1.notInside (.inr (Nat.le_refl _))).perm hperm⟩
  | .post s body, off, k, hf, ha => by
    have ih := Lay.orderlyL l o first body off k hf.2.2 ha.2
    have hop : s.opOff = some (off + (Lay.srcL body).length) := hf.1
    have hsp : s.span = ⟨off, off + (Lay.srcL body).length + s.op.str.length⟩ := hf.2.1
    have h1 := ih.append (Edit.replace_in (off + (Lay.srcL body).length) s.op.str.length []
      (List.length_pos_iff.2 s.op.str_ne)) (Nat.le_refl _) (by omega) (by omega)
    simp only [Lay.edits, Lay.muts, Lay.consts, editsFrom_snoc]
    obtain ⟨ws, hws, hin⟩ := s.edits_shape l o
      (first + (k + countAll l o.optimise (Lay.mutsL body)) - first)
    have : (Mutation.apply l o first (first + (k + countAll l o.optimise (Lay.mutsL body)))
        (.un s)).edits = replaceSymbol s.opOff s.op.str.length [] ++ ws := hws
    rw [this, hop]
    simp only [replaceSymbol]
    rw [← List.append_assoc (editsFrom _ _ _ _ _)]
    have hperm : (Lay.editsL l o first k off body ++
          [Edit.replace (off + (Lay.srcL body).length) s.op.str.length []]).Perm
        ((editsFrom l o first (first + k) (Lay.mutsL body) ++
            [.replace (off + (Lay.srcL body).length) s.op.str.length []])
          ++ constEdits (Lay.constsL off body)) := by
      rw [Lay.editsL, List.append_assoc, List.append_assoc]
      exact List.Perm.append_left _ List.perm_append_comm
    have hlen : (Lay.src (.post s body)).length = (Lay.srcL body).length + s.op.str.length := by
      simp [Lay.src]
    rw [hlen, ← Nat.add_assoc]
    refine Orderly.insertMid (h1.perm hperm) _ fun w hw => ?_
    rcases hin w hw with hw | hw <;> rw [hsp] at hw
    · exact ⟨_, hw, Nat.le_refl _, by dsimp only; omega,
        (h1.notInside (.inl (Nat.le_refl _))).perm hperm⟩
    · exact ⟨_, hw, by dsimp only; omega, Nat.le_refl _,
        (h1.notInside (.inr (Nat.le_refl _))).perm hperm⟩
  | .bin s lhs g1 g2 rhs, off, k, hf, ha => by
    obtain ⟨hl, hop, hr, hsp, hfl, hfr⟩ := hf
    have il := Lay.orderlyL l o first lhs off k hfl ha.2.2.2.2.1
    have ir := Lay.orderlyL l o first rhs
      (off + (Lay.srcL lhs).length + g1.length + s.op.str.length + g2.length)
      (k + countAll l o.optimise (Lay.mutsL lhs)) hfr ha.2.2.2.2.2
    have hpos : 0 < s.op.str.length := List.length_pos_iff.2 s.op.str_ne
    obtain ⟨rs, ws, hws, hrs, hin⟩ := s.edits_shape l o first
      (first + (k + countAll l o.optimise (Lay.mutsL lhs ++ Lay.mutsL rhs)))
    have hmid : Orderly rs (off + (Lay.srcL lhs).length)
        (off + (Lay.srcL lhs).length + g1.length + s.op.str.length + g2.length) := by
      rcases hrs with rfl | ⟨q, hq, rfl⟩
      · exact Orderly.nil _ _
      · have h := Edit.replace_in q s.op.str.length t!"," hpos
        rw [hop, Option.some.injEq] at hq
        subst hq
        exact ⟨fun e he => (h.within e he).mono (by omega) (by omega), h.clear⟩
    have h0 := il.append hmid (Nat.le_refl _) (by omega) (by omega)
    have h1 := h0.append ir (Nat.le_refl _) (by omega) (by omega)
    have hlen : (Lay.src (.bin s lhs g1 g2 rhs)).length = (Lay.srcL lhs).length + g1.length
        + s.op.str.length + g2.length + (Lay.srcL rhs).length := by
      simp [Lay.src]; omega
    have hperm : ((Lay.editsL l o first k off lhs ++ rs) ++
          Lay.editsL l o first (k + countAll l o.optimise (Lay.mutsL lhs))
            (off + (Lay.srcL lhs).length + g1.length + s.op.str.length + g2.length) rhs).Perm
        ((editsFrom l o first (first + k) (Lay.mutsL lhs ++ Lay.mutsL rhs) ++ rs) ++
          constEdits (Lay.consts off (.bin s lhs g1 g2 rhs))) := by
      simp only [Lay.editsL, Lay.consts, constEdits_append, editsFrom_append, ← Nat.add_assoc]
      have p1 : ∀ A B C D R : List Edit,
          (((A ++ C) ++ R) ++ (B ++ D)).Perm (A ++ B ++ R ++ (C ++ D)) := by
        intro A B C D R
        have e1 : (((A ++ C) ++ R) ++ (B ++ D)).Perm (((A ++ C) ++ (B ++ D)) ++ R) := by
          rw [List.append_assoc (A ++ C), List.append_assoc (A ++ C)]
          exact List.Perm.append_left _ List.perm_append_comm
        have e2 : (((A ++ C) ++ (B ++ D)) ++ R).Perm ((A ++ B ++ (C ++ D)) ++ R) :=
          List.Perm.append_right _ (perm4 A B C D)
        have e3 : ((A ++ B ++ (C ++ D)) ++ R).Perm (A ++ B ++ R ++ (C ++ D)) := by
          rw [List.append_assoc (A ++ B), List.append_assoc (A ++ B)]
          exact List.Perm.append_left _ List.perm_append_comm
        exact e1.trans (e2.trans e3)
      exact p1 _ _ _ _ _
    rw [hlen]
    simp only [Lay.edits, Lay.muts, editsFrom_snoc]
    have : (Mutation.apply l o first
        (first + (k + countAll l o.optimise (Lay.mutsL lhs ++ Lay.mutsL rhs))) (.bin s)).edits
        = rs ++ ws := hws
    rw [this, ← List.append_assoc]
    have hT := h1.perm hperm
    rw [show off + (Lay.srcL lhs).length + g1.length + s.op.str.length + g2.length
      + (Lay.srcL rhs).length = off + ((Lay.srcL lhs).length + g1.length + s.op.str.length + g2.length
      + (Lay.srcL rhs).length) by omega] at hT
    have hni : ∀ q, (q ≤ off ∨ off + (Lay.srcL lhs).length ≤ q) →
        (q ≤ off + (Lay.srcL lhs).length ∨
          off + (Lay.srcL lhs).length + g1.length + s.op.str.length + g2.length ≤ q) →
        (q ≤ off + (Lay.srcL lhs).length + g1.length + s.op.str.length + g2.length ∨
          off + (Lay.srcL lhs).length + g1.length + s.op.str.length + g2.length
            + (Lay.srcL rhs).length ≤ q) →
        NotInside ((editsFrom l o first (first + k) (Lay.mutsL lhs ++ Lay.mutsL rhs) ++ rs) ++
          constEdits (Lay.consts off (.bin s lhs g1 g2 rhs))) q := fun q a b c =>
      (((il.notInside a).append (hmid.notInside b)).append (ir.notInside c)).perm hperm
    refine Orderly.insertMid hT ws fun w hw => ?_
    obtain ⟨q, hq, hwq⟩ := hin w hw
    refine ⟨q, hwq, ?_⟩
    simp only [BinSite.ends, hl, hr, hsp, List.mem_cons, List.not_mem_nil, or_false] at hq
    refine ⟨by omega, by omega, hni q (by omega) (by omega) (by omega)⟩

theorem Lay.orderlyL (l : Lang) (o : Options) (first : Nat) : (xs : List Lay) → (off k : Nat) →
    Lay.FitsL off xs → Lay.ApartL xs →
    Orderly (Lay.editsL l o first k off xs) off (off + (Lay.srcL xs).length)
  | [], off, k, _, _ => Orderly.nil _ _
  | x :: xs, off, k, hf, ha => by
    have ih := Lay.orderly l o first x off k hf.1 ha.1
    have ih' := Lay.orderlyL l o first xs (off + x.src.length) (k + countAll l o.optimise x.muts) hf.2 ha.2
    have h := ih.append ih' (Nat.le_refl _) (by omega) (by omega)
    rw [show off + x.src.length + (Lay.srcL xs).length = off + (Lay.srcL (x :: xs)).length by
      simp [Lay.srcL, Nat.add_assoc]] at h
    refine h.perm ?_
    simp only [Lay.edits, Lay.editsL, Lay.mutsL, Lay.constsL, editsFrom_append, constEdits_append,
      ← Nat.add_assoc]
    exact perm4 _ _ _ _
end

end Dredd
