/-
Helper lemmas: what the visitor records besides the mutations, from which nodes
exactly, and in which order.
-/
import Verif.Proofs.Exact
import Verif.Spec.Marker

namespace Dredd

/-- The part of the state besides the mutation tree and the locations. -/
structure Recs where
  prelude : Option Nat
  arrays : List ConstArg
  asserts : List ConstArg
  args : List ConstArg

def VState.recs (st : VState) : Recs := ⟨st.prelude, st.arrays, st.asserts, st.args⟩

/-- What is recorded at a node. -/
def noteRec (l : Lang) (r : Recs) : Ctx × Node → Recs
  | (_, .decl d _) => (noteDecl l d ⟨.node [] [], [], r.prelude, r.arrays, r.asserts, r.args⟩).recs
  | (c, .stmt s _) => { r with args := r.args ++ frameArg c.above s }
  | _ => r

/-- The nodes at which something can be recorded. -/
def Records (opt : Bool) : Ctx × Node → Prop
  | (c, .decl d _) => isItem c.above = false ∧ (d.isTU = true ∨ d.range.isSome = true)
  | (c, .stmt s _) => skipStmt c.above s = true ∧
      (isItem c.above = true → s.kind ≠ .case_ ∧ s.kind ≠ .default_ ∧ pointless opt s = false)
  | _ => False

/-- The visitor goes from a node to its child. -/
inductive Kid (l : Lang) (opt : Bool) : Ctx → Node → Ctx → Node → Prop
  | decl {c c' d ks i k} : isItem c.above = false →
      (d.isTU = true ∨ d.range.isSome = true) → declCtx l c d = some c' → ks[i]? = some k →
      Kid l opt c (.decl d ks) (c'.enter (.decl d) i) k
  | stmt {c s ks i k} : skipStmt c.above s = false →
      (s.kind = .case_ → i + 1 = ks.length) →
      (isItem c.above = true → s.kind ≠ .case_ ∧ s.kind ≠ .default_ ∧ pointless opt s = false) →
      ks[i]? = some k → Kid l opt c (.stmt s ks) (c.enter (.stmt s) i) k
  | label {c s ks i k} : (s.kind = .case_ ∨ s.kind = .default_) →
      isItem c.above = true → ks[i]? = some k → i + 1 = ks.length →
      Kid l opt c (.stmt s ks) (c.enter (.stmt s) i) k
  | other {c o ks i k} : isItem c.above = false →
      skipOther l o = false → ks[i]? = some k → Kid l opt c (.other o ks) (c.enter (.other o) i) k

/-- The visitor gets from a node to another. -/
inductive Below (l : Lang) (opt : Bool) : Ctx → Node → Ctx → Node → Prop
  | here {c n} : Below l opt c n c n
  | step {c n c' k c'' m} : Kid l opt c n c' k → Below l opt c' k c'' m → Below l opt c n c'' m

theorem Below.snoc {l opt c n c' k c'' m} (h : Below l opt c n c' k) (hk : Kid l opt c' k c'' m) :
    Below l opt c n c'' m := by
  induction h with
  | here => exact .step hk .here
  | step h1 _ ih => exact .step h1 (ih hk)

theorem Path.belowRoot {l opt root c n} (h : Path l opt root c n) : Below l opt ⟨[], [], []⟩ root c n := by
  induction h with
  | root => exact .here
  | decl _ hi hr hc hk ih => exact ih.snoc (.decl hi hr hc hk)
  | stmt _ hs hc hi hk ih => exact ih.snoc (.stmt hs hc hi hk)
  | label _ hkind hi hk hl ih => exact ih.snoc (.label hkind hi hk hl)
  | other _ hi ho hk ih => exact ih.snoc (.other hi ho hk)

theorem Path.kid {l opt root c n c' k} (h : Path l opt root c n) (hk : Kid l opt c n c' k) :
    Path l opt root c' k := by
  cases hk with
  | decl hi hr hc hk => exact .decl h hi hr hc hk
  | stmt hs hc hi hk => exact .stmt h hs hc hi hk
  | label hkind hi hk hl => exact .label h hkind hi hk hl
  | other hi ho hk => exact .other h hi ho hk

theorem Below.path {l opt root c n c' m} (h : Below l opt c n c' m) (hp : Path l opt root c n) :
    Path l opt root c' m := by
  induction h with
  | here => exact hp
  | step hk _ ih => exact ih (hp.kid hk)

theorem Kid.pos {l opt c n c' k} (h : Kid l opt c n c' k) : ∃ i, c'.pos = c.pos ++ [i] := by
  cases h with
  | decl hi hr hc hk => exact ⟨_, by rw [enter_pos, (declCtx_pos hc).1]⟩
  | stmt => exact ⟨_, rfl⟩
  | label => exact ⟨_, rfl⟩
  | other => exact ⟨_, rfl⟩

theorem Below.pos {l opt c n c' m} (h : Below l opt c n c' m) : ∃ r, c'.pos = c.pos ++ r := by
  induction h with
  | here => exact ⟨[], by simp⟩
  | step hk _ ih =>
    obtain ⟨i, hi⟩ := hk.pos
    obtain ⟨r, hr⟩ := ih
    exact ⟨i :: r, by rw [hr, hi]; simp⟩

/-- A step of the visitor records what the nodes of the list say, and these are the ones with `Q`,
in the order of the tree. -/
def Logs (l : Lang) (Q : Ctx × Node → Prop) (f : VState → VState) : Prop :=
  ∃ evs : List (Ctx × Node), (∀ st, (f st).recs = evs.foldl (noteRec l) st.recs) ∧
    (∀ e, e ∈ evs ↔ Q e) ∧ evs.Pairwise fun a b => Precedes a.1.pos b.1.pos

theorem Logs.none {l Q} {f : VState → VState} (h : ∀ st, (f st).recs = st.recs) (hq : ∀ e, ¬ Q e) :
    Logs l Q f :=
  ⟨[], h, fun e => by simp [hq e], .nil⟩

theorem Logs.congr {l Q Q'} {f g : VState → VState} (hf : Logs l Q f) (h : ∀ st, (g st).recs = (f st).recs)
    (hq : ∀ e, Q e ↔ Q' e) : Logs l Q' g := by
  obtain ⟨evs, h1, h2, h3⟩ := hf
  exact ⟨evs, fun st => by rw [h, h1], fun e => by rw [h2, hq], h3⟩

theorem Logs.seq {l Q Q'} {f g : VState → VState} (hf : Logs l Q f) (hg : Logs l Q' g)
    (h : ∀ a b, Q a → Q' b → Precedes a.1.pos b.1.pos) :
    Logs l (fun e => Q e ∨ Q' e) (fun st => g (f st)) := by
  obtain ⟨evs, h1, h2, h3⟩ := hf
  obtain ⟨evs', h1', h2', h3'⟩ := hg
  refine ⟨evs ++ evs', fun st => by rw [List.foldl_append, h1', h1], fun e => by
    rw [List.mem_append, h2, h2'], ?_⟩
  rw [List.pairwise_append]
  exact ⟨h3, h3', fun a ha b hb => h a b ((h2 a).mp ha) ((h2' b).mp hb)⟩

theorem Logs.one {l} {f : VState → VState} (e : Ctx × Node) (h : ∀ st, (f st).recs = noteRec l st.recs e) :
    Logs l (fun e' => e' = e) f :=
  ⟨[e], h, fun e' => by simp, by simp⟩

theorem precedes_sibling {p : List Nat} {i j : Nat} {r r' : List Nat} (h : i < j) :
    Precedes (p ++ [i] ++ r) (p ++ [j] ++ r') :=
  .inr ⟨p, i, j, r, r', h, by simp, by simp⟩

theorem precedes_below {p : List Nat} {i : Nat} {r : List Nat} : Precedes p (p ++ [i] ++ r) :=
  .inl ⟨i, r, by simp⟩

theorem visitDecl_recs (d : Decl) (st : VState) : (visitDecl d st).recs = st.recs := by
  unfold visitDecl
  split <;> rfl

theorem noteDecl_recs (l : Lang) (c : Ctx) (d : Decl) (ks : List Node) (st : VState) :
    (noteDecl l d st).recs = noteRec l st.recs (c, .decl d ks) := by
  obtain ⟨kind, range⟩ := d
  cases kind <;> rfl

theorem inChild_recs (st : VState) (f : VState → VState) :
    (st.inChild f).recs = (f { st with cur := .node [] [] }).recs := rfl

/-- What a step for the children from the `i`-th on should record. -/
def FromKids (l : Lang) (opt : Bool) (c : Ctx) (n : NodeInfo) (i : Nat) (ks : List Node) (e : Ctx × Node) : Prop :=
  ∃ (j : Nat) (k : Node), ks[j]? = some k ∧ Below l opt (c.enter n (i + j)) k e.1 e.2 ∧ Records opt e

/-- The same for the last child. -/
def FromLast (l : Lang) (opt : Bool) (c : Ctx) (n : NodeInfo) (i : Nat) (ks : List Node) (e : Ctx × Node) : Prop :=
  ∃ (j : Nat) (k : Node), ks[j]? = some k ∧ j + 1 = ks.length ∧
    Below l opt (c.enter n (i + j)) k e.1 e.2 ∧ Records opt e

theorem fromKids_cons {l opt c n i k ks e} :
    FromKids l opt c n i (k :: ks) e ↔
      (Below l opt (c.enter n i) k e.1 e.2 ∧ Records opt e) ∨ FromKids l opt c n (i + 1) ks e := by
  constructor
  · rintro ⟨j, k', hj, h1, h2⟩
    cases j with
    | zero => simp at hj; subst hj; exact .inl ⟨h1, h2⟩
    | succ j => exact .inr ⟨j, k', by simpa using hj, by rwa [show i + 1 + j = i + (j + 1) by omega], h2⟩
  · rintro (⟨h1, h2⟩ | ⟨j, k', hj, h1, h2⟩)
    · exact ⟨0, k, rfl, h1, h2⟩
    · exact ⟨j + 1, k', by simpa using hj, by rwa [show i + (j + 1) = i + 1 + j by omega], h2⟩

theorem fromKids_pos {l opt c n i ks e} (h : FromKids l opt c n i ks e) :
    ∃ j r, i ≤ j ∧ e.1.pos = c.pos ++ [j] ++ r := by
  obtain ⟨j, k, -, h1, -⟩ := h
  obtain ⟨r, hr⟩ := h1.pos
  exact ⟨i + j, r, by omega, by rw [hr, enter_pos]⟩

theorem fromLast_skip {l opt c n i k k' ks e} :
    FromLast l opt c n (i + 1) (k' :: ks) e ↔ FromLast l opt c n i (k :: k' :: ks) e := by
  constructor
  · rintro ⟨j, m, hj, hl, h1, h2⟩
    exact ⟨j + 1, m, by simpa using hj, by simpa using hl,
      by rwa [show i + (j + 1) = i + 1 + j by omega], h2⟩
  · rintro ⟨j, m, hj, hl, h1, h2⟩
    cases j with
    | zero => simp at hl
    | succ j =>
      exact ⟨j, m, by simpa using hj, by simpa using hl, by rwa [show i + 1 + j = i + (j + 1) by omega], h2⟩

theorem fromLast_one {l opt c n i k e} :
    (Below l opt (c.enter n i) k e.1 e.2 ∧ Records opt e) ↔ FromLast l opt c n i [k] e := by
  constructor
  · rintro ⟨h1, h2⟩
    exact ⟨0, k, rfl, rfl, h1, h2⟩
  · rintro ⟨j, m, hj, hl, h1, h2⟩
    have : j = 0 := by simpa using hl
    subst this
    simp at hj
    subst hj
    exact ⟨h1, h2⟩

/-- A statement that is not skipped records what its children record. -/
theorem stmtRun_logs (l : Lang) (opt : Bool) (c : Ctx) (s : AStmt) (ks : List Node)
    (hi : isItem c.above = true → s.kind ≠ .case_ ∧ s.kind ≠ .default_ ∧ pointless opt s = false)
    (h1 : skipStmt c.above s = false → s.kind ≠ .compound → s.kind ≠ .case_ →
      Logs l (FromKids l opt c (.stmt s) 0 ks) (traverseL l opt c (.stmt s) 0 ks))
    (h2 : s.kind = .case_ → Logs l (FromLast l opt c (.stmt s) 0 ks) (traverseLast l opt c (.stmt s) 0 ks))
    (h3 : s.kind = .compound → Logs l (FromKids l opt c (.stmt s) 0 ks) (blockItems l opt c (.stmt s) 0 ks)) :
    Logs l (fun e => Below l opt c (.stmt s ks) e.1 e.2 ∧ Records opt e) (stmtRun l opt c s ks) := by
  cases hs : skipStmt c.above s with
  | true =>
    refine (Logs.one (c, .stmt s ks) (f := stmtRun l opt c s ks) fun st => ?_).congr (fun _ => rfl) fun e => ?_
    · simp [stmtRun, stmtStep, hs, noteRec, VState.recs]
    · constructor
      · rintro rfl
        exact ⟨.here, hs, hi⟩
      · rintro ⟨hb, hr⟩
        obtain ⟨c', m⟩ := e
        cases hb with
        | here => rfl
        | step hk _ =>
          cases hk with
          | stmt h => rw [hs] at h; cases h
          | label hkind hi' => 
            rcases hkind with h | h
            · exact absurd h (hi hi').1
            · exact absurd h (hi hi').2.1
  | false =>
    have key : ∀ e, FromKids l opt c (.stmt s) 0 ks e → s.kind ≠ .case_ →
        (Below l opt c (.stmt s ks) e.1 e.2 ∧ Records opt e) := by
      rintro e ⟨j, k, hj, hb, hr⟩ hc
      rw [Nat.zero_add] at hb
      exact ⟨.step (.stmt hs (fun h => absurd h hc) hi hj) hb, hr⟩
    have key' : ∀ e, Below l opt c (.stmt s ks) e.1 e.2 → Records opt e →
        FromKids l opt c (.stmt s) 0 ks e ∧ (s.kind = .case_ → FromLast l opt c (.stmt s) 0 ks e) := by
      rintro ⟨c', m⟩ hb hr
      cases hb with
      | here => exact absurd hr.1 (by simp [hs])
      | step hk hb =>
        cases hk with
        | stmt h hc _ hj =>
          exact ⟨⟨_, _, hj, by rwa [Nat.zero_add], hr⟩, fun hk =>
            ⟨_, _, hj, hc hk, by rwa [Nat.zero_add], hr⟩⟩
        | label hkind hi' =>
          rcases hkind with h | h
          · exact absurd h (hi hi').1
          · exact absurd h (hi hi').2.1
    rw [stmtRun_eq l opt c s ks hs]
    by_cases hc : s.kind = .case_
    · refine (h2 hc).congr (f := traverseLast l opt c (.stmt s) 0 ks) (fun st => ?_) fun e => ?_
      · rw [inChild_recs]
        simp only [hc]
        obtain ⟨evs, he, -⟩ := h2 hc
        rw [he, he]; rfl
      · constructor
        · rintro ⟨j, k, hj, hl, hb, hr⟩
          rw [Nat.zero_add] at hb
          exact ⟨.step (.stmt hs (fun _ => hl) hi hj) hb, hr⟩
        · rintro ⟨hb, hr⟩
          exact (key' e hb hr).2 hc
    · have hq : ∀ e, FromKids l opt c (.stmt s) 0 ks e ↔ (Below l opt c (.stmt s ks) e.1 e.2 ∧ Records opt e) :=
        fun e => ⟨fun h => key e h hc, fun h => (key' e h.1 h.2).1⟩
      by_cases hcomp : s.kind = .compound
      · refine (h3 hcomp).congr (fun st => ?_) hq
        rw [inChild_recs]
        simp only [hcomp]
        obtain ⟨evs, he, -⟩ := h3 hcomp
        rw [he, he]; rfl
      · refine (h1 hs hcomp hc).congr (fun st => ?_) hq
        rw [inChild_recs]
        obtain ⟨evs, he, -⟩ := h1 hs hcomp hc
        rw [he]
        cases hk : s.kind
        case compound => exact absurd hk hcomp
        case case_ => exact absurd hk hc
        all_goals (simp only []; first | (rw [he]; rfl) | (show (traverseL l opt c (.stmt s) 0 ks _).recs = _; rw [he]; rfl))

mutual
theorem traverse_logs (l : Lang) (opt : Bool) (c : Ctx) : (n : Node) → isItem c.above = false →
    Logs l (fun e => Below l opt c n e.1 e.2 ∧ Records opt e) (traverse l opt c n)
  | .decl d ks, hi => by
    by_cases hd : (!d.isTU && !d.range.isSome) = true
    · have hno : ¬ (d.isTU = true ∨ d.range.isSome = true) := by
        simpa using hd
      refine .none (fun st => by simp only [traverse, hd, if_true]) ?_
      rintro ⟨c', m⟩ ⟨hb, hr⟩
      cases hb with
      | here => exact hno hr.2
      | step hk _ =>
        cases hk with
        | decl _ h => exact hno h
    · have hd' : d.isTU = true ∨ d.range.isSome = true := by
        cases h1 : d.isTU <;> cases h2 : d.range.isSome <;> simp [h1, h2] at hd ⊢
      have ht : traverse l opt c (.decl d ks) = declStep l c d (fun c st => traverseL l opt c (.decl d) 0 ks st) := by
        funext st
        rw [traverse, if_neg hd]
      rw [ht]
      unfold declStep
      have hone : Logs l (fun e => e = (c, .decl d ks)) (noteDecl l d) := Logs.one _ (noteDecl_recs l c d ks)
      split
      · rename_i hc
        refine hone.congr (fun _ => rfl) fun e => ?_
        constructor
        · rintro rfl
          exact ⟨.here, hi, hd'⟩
        · rintro ⟨hb, -⟩
          obtain ⟨c', m⟩ := e
          cases hb with
          | here => rfl
          | step hk _ =>
            cases hk with
            | decl _ _ h => rw [hc] at h; cases h
      · rename_i c' hc
        refine (hone.seq (traverseL_logs l opt c' (.decl d) 0 ks rfl) ?_).congr
          (fun st => visitDecl_recs d _) fun e => ?_
        · rintro a b rfl hb
          obtain ⟨j, r, -, hb⟩ := fromKids_pos hb
          rw [hb, (declCtx_pos hc).1]
          exact precedes_below
        · constructor
          · rintro (rfl | ⟨j, k, hj, hb, hr⟩)
            · exact ⟨.here, hi, hd'⟩
            · rw [Nat.zero_add] at hb
              exact ⟨.step (.decl hi hd' hc hj) hb, hr⟩
          · rintro ⟨hb, hr⟩
            obtain ⟨c'', m⟩ := e
            cases hb with
            | here => exact .inl rfl
            | step hk hb =>
              cases hk with
              | decl _ _ h hj =>
                rw [hc] at h
                cases h
                exact .inr ⟨_, _, hj, by rwa [Nat.zero_add], hr⟩
  | .stmt s ks, hi => by
    have hno : isItem c.above = true → s.kind ≠ .case_ ∧ s.kind ≠ .default_ ∧ pointless opt s = false := by
      rw [hi]; intro h; cases h
    have ih1 := fun h => traverseL_logs l opt c (.stmt s) 0 ks h
    have ih2 := fun h => traverseLast_logs l opt c (.stmt s) 0 ks h
    have ih3 := fun h => blockItems_logs l opt c (.stmt s) 0 ks h
    refine (stmtRun_logs l opt c s ks hno ?_ ?_ ?_).congr (fun st => by rw [traverse]; rfl) fun _ => Iff.rfl
    · intro _ h1 h2
      exact ih1 (item_kid (i := 0) h1 fun h => ⟨(hno h).1, (hno h).2.1⟩)
    · intro h
      exact ih2 (item_kid (i := 0) (by simp [h]) fun h => ⟨(hno h).1, (hno h).2.1⟩)
    · intro h
      exact ih3 (by simp [isItem, NodeInfo.kind?, h])
  | .other o ks, hi => by
    have ih := traverseL_logs l opt c (.other o) 0 ks rfl
    by_cases ho : skipOther l o = true
    · refine .none (fun st => by simp only [traverse, ho, if_true]) ?_
      rintro ⟨c', m⟩ ⟨hb, hr⟩
      cases hb with
      | here => exact hr
      | step hk _ =>
        cases hk with
        | other _ h => rw [ho] at h; cases h
    · refine ih.congr (fun st => by rw [traverse, if_neg ho]) fun e => ?_
      constructor
      · rintro ⟨j, k, hj, hb, hr⟩
        rw [Nat.zero_add] at hb
        exact ⟨.step (.other hi (by simpa using ho) hj) hb, hr⟩
      · rintro ⟨hb, hr⟩
        obtain ⟨c', m⟩ := e
        cases hb with
        | here => exact absurd hr id
        | step hk hb =>
          cases hk with
          | other _ _ hj => exact ⟨_, _, hj, by rwa [Nat.zero_add], hr⟩

theorem traverseL_logs (l : Lang) (opt : Bool) (c : Ctx) (n : NodeInfo) (i : Nat) : (ks : List Node) →
    isItem (n :: c.above) = false →
    Logs l (FromKids l opt c n i ks) (traverseL l opt c n i ks)
  | [], _ => .none (fun st => by rw [traverseL]) (by rintro e ⟨j, k, hj, -⟩; simp at hj)
  | k :: ks, hi => by
    refine ((traverse_logs l opt (c.enter n i) k hi).seq (traverseL_logs l opt c n (i + 1) ks hi) ?_).congr
      (fun st => by rw [traverseL]) fun e => fromKids_cons.symm
    rintro a b ⟨ha, -⟩ hb
    obtain ⟨r, ha⟩ := ha.pos
    obtain ⟨j, r', hj, hb⟩ := fromKids_pos hb
    rw [ha, hb, enter_pos]
    exact precedes_sibling (by omega)

theorem traverseLast_logs (l : Lang) (opt : Bool) (c : Ctx) (n : NodeInfo) (i : Nat) : (ks : List Node) →
    isItem (n :: c.above) = false →
    Logs l (FromLast l opt c n i ks) (traverseLast l opt c n i ks)
  | [], _ => .none (fun st => by rw [traverseLast]) (by rintro e ⟨j, k, hj, -⟩; simp at hj)
  | [k], hi => (traverse_logs l opt (c.enter n i) k hi).congr (fun st => by rw [traverseLast])
      fun _ => fromLast_one
  | k :: k' :: ks, hi => (traverseLast_logs l opt c n (i + 1) (k' :: ks) hi).congr
      (fun st => by simp [traverseLast]) fun _ => fromLast_skip

theorem blockItems_logs (l : Lang) (opt : Bool) (c : Ctx) (n : NodeInfo) (i : Nat) : (ks : List Node) →
    isItem (n :: c.above) = true →
    Logs l (FromKids l opt c n i ks) (blockItems l opt c n i ks)
  | [], _ => .none (fun st => by rw [blockItems]) (by rintro e ⟨j, k, hj, -⟩; simp at hj)
  | k :: ks, hi => by
    refine ((blockItem_logs l opt (c.enter n i) k hi).seq (blockItems_logs l opt c n (i + 1) ks hi) ?_).congr
      (fun st => by rw [blockItems]) fun e => fromKids_cons.symm
    rintro a b ⟨ha, -⟩ hb
    obtain ⟨r, ha⟩ := ha.pos
    obtain ⟨j, r', hj, hb⟩ := fromKids_pos hb
    rw [ha, hb, enter_pos]
    exact precedes_sibling (by omega)

theorem blockItem_logs (l : Lang) (opt : Bool) (c : Ctx) : (n : Node) → isItem c.above = true →
    Logs l (fun e => Below l opt c n e.1 e.2 ∧ Records opt e) (blockItem l opt c n)
  | .decl d ks, hi => by
    refine .none (fun st => by rw [blockItem]; simp) ?_
    rintro ⟨c', m⟩ ⟨hb, hr⟩
    cases hb with
    | here => simp [Records, hi] at hr
    | step hk _ =>
      cases hk with
      | decl h => rw [hi] at h; cases h
  | .other o ks, hi => by
    refine .none (fun st => by rw [blockItem]; simp) ?_
    rintro ⟨c', m⟩ ⟨hb, hr⟩
    cases hb with
    | here => exact hr
    | step hk _ =>
      cases hk with
      | other h => rw [hi] at h; cases h
  | .stmt s ks, hi => by
    have ih1 := fun h => traverseL_logs l opt c (.stmt s) 0 ks h
    have ih3 := fun h => blockItems_logs l opt c (.stmt s) 0 ks h
    have ih4 := fun h => blockLast_logs l opt c (.stmt s) 0 ks h
    by_cases hk : s.kind = .case_ ∨ s.kind = .default_
    · rw [blockItem_label l opt c s ks hk]
      refine (ih4 ?_).congr (fun _ => rfl) fun e => ?_
      · rcases hk with hk | hk <;> simp [isItem, NodeInfo.kind?, hk, hi]
      · constructor
        · rintro ⟨j, k, hj, hl, hb, hr⟩
          rw [Nat.zero_add] at hb
          exact ⟨.step (.label hk hi hj hl) hb, hr⟩
        · rintro ⟨hb, hr⟩
          obtain ⟨c', m⟩ := e
          cases hb with
          | here =>
            rcases hk with hk | hk
            · exact absurd hk (hr.2 hi).1
            · exact absurd hk (hr.2 hi).2.1
          | step hkid hb =>
            cases hkid with
            | stmt _ _ h =>
              rcases hk with hk | hk
              · exact absurd hk (h hi).1
              · exact absurd hk (h hi).2.1
            | label _ _ hj hl => exact ⟨_, _, hj, hl, by rwa [Nat.zero_add], hr⟩
    · have hk1 : s.kind ≠ .case_ := fun h => hk (.inl h)
      have hk2 : s.kind ≠ .default_ := fun h => hk (.inr h)
      cases hp : pointless opt s with
      | true =>
        refine .none (fun st => ?_) ?_
        · rw [blockItem]
          split
          · contradiction
          · contradiction
          · rw [if_pos hp]
        · rintro ⟨c', m⟩ ⟨hb, hr⟩
          cases hb with
          | here =>
            have := (hr.2 hi).2.2
            rw [hp] at this; cases this
          | step hkid _ =>
            cases hkid with
            | stmt _ _ h =>
              have := (h hi).2.2
              rw [hp] at this; cases this
            | label h => exact hk h
      | false =>
        rw [blockItem_eq l opt c s ks hk1 hk2 hp]
        have := stmtRun_logs l opt c s ks (fun _ => ⟨hk1, hk2, hp⟩)
          (fun _ h1 _ => ih1 (item_kid (i := 0) h1 fun _ => ⟨hk1, hk2⟩))
          (fun h => absurd h hk1) (fun h => ih3 (by simp [isItem, NodeInfo.kind?, h]))
        refine this.congr (fun st => ?_) fun _ => Iff.rfl
        obtain ⟨evs, he, -⟩ := this
        rw [inChild_recs]
        show (stmtRun l opt c s ks _).recs = _
        rw [he, he]; rfl

theorem blockLast_logs (l : Lang) (opt : Bool) (c : Ctx) (n : NodeInfo) (i : Nat) : (ks : List Node) →
    isItem (n :: c.above) = true →
    Logs l (FromLast l opt c n i ks) (blockLast l opt c n i ks)
  | [], _ => .none (fun st => by rw [blockLast]) (by rintro e ⟨j, k, hj, -⟩; simp at hj)
  | [k], hi => (blockItem_logs l opt (c.enter n i) k hi).congr (fun st => by rw [blockLast])
      fun _ => fromLast_one
  | k :: k' :: ks, hi => (blockLast_logs l opt c n (i + 1) (k' :: ks) hi).congr
      (fun st => by simp [blockLast]) fun _ => fromLast_skip
end

/-- What the visitor records for a translation unit. -/
theorem visitTU_logs (l : Lang) (opt : Bool) (root : Node) :
    ∃ evs : List (Ctx × Node), (visitTU l opt root).recs = evs.foldl (noteRec l) VState.start.recs ∧
      (∀ e, e ∈ evs ↔ Path l opt root e.1 e.2 ∧ Records opt e) ∧
      evs.Pairwise fun a b => Precedes a.1.pos b.1.pos := by
  obtain ⟨evs, h1, h2, h3⟩ := traverse_logs l opt ⟨[], [], []⟩ root rfl
  refine ⟨evs, h1 _, fun e => ?_, h3⟩
  rw [h2]
  exact and_congr_left fun _ => ⟨fun h => h.path .root, fun h => h.belowRoot⟩

end Dredd
