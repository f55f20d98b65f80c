/-
The lexemes of a rewritten file.
-/
import Verif.Proofs.LexDecls

namespace Dredd

/-! ### Places -/

theorem placed_append (o : Nat) (xs ys : List Lexeme) :
    placed o (xs ++ ys) = placed o xs ++ placed (o + (lexText xs).length) ys := by
  induction xs generalizing o with
  | nil => simp [placed]
  | cons x xs ih => simp [placed, ih, Nat.add_assoc]

theorem placed_range {o q : Nat} {x : Lexeme} {L : List Lexeme} (h : (q, x) ∈ placed o L) :
    o ≤ q ∧ q + x.2.length ≤ o + (lexText L).length := by
  induction L generalizing o with
  | nil => cases h
  | cons y L ih =>
    rcases List.mem_cons.1 h with h | h
    · cases h; simp
    · have := ih h
      simp only [lexText_cons, List.length_append]
      omega

theorem placed_split {o q : Nat} {x : Lexeme} {L : List Lexeme} (h : (q, x) ∈ placed o L) :
    ∃ pre suf, L = pre ++ x :: suf ∧ q = o + (lexText pre).length := by
  induction L generalizing o with
  | nil => cases h
  | cons y L ih =>
    rcases List.mem_cons.1 h with h | h
    · cases h; exact ⟨[], L, rfl, by simp⟩
    · obtain ⟨pre, suf, rfl, h⟩ := ih h
      exact ⟨y :: pre, suf, rfl, by simp [h]; omega⟩

theorem placed_mem {o q : Nat} {x : Lexeme} {L : List Lexeme} (h : (q, x) ∈ placed o L) : x ∈ L := by
  obtain ⟨pre, suf, rfl, -⟩ := placed_split h
  simp

theorem places_pos {src : Text} {q : Nat} {x : Lexeme} (h : (q, x) ∈ places src) : 0 < x.2.length :=
  List.length_pos_iff.2 (lexemes_single src x (placed_mem h)).1

theorem placed_apart {o q q' : Nat} {x x' : Lexeme} {L : List Lexeme} (h : (q, x) ∈ placed o L)
    (h' : (q', x') ∈ placed o L) :
    (q = q' ∧ x = x') ∨ q + x.2.length ≤ q' ∨ q' + x'.2.length ≤ q := by
  induction L generalizing o with
  | nil => cases h
  | cons y L ih =>
    rcases List.mem_cons.1 h with h | h <;> rcases List.mem_cons.1 h' with h' | h'
    · cases h; cases h'; exact .inl ⟨rfl, rfl⟩
    · cases h; exact .inr (.inl (placed_range h').1)
    · cases h'; exact .inr (.inr (placed_range h).1)
    · exact ih h h'

theorem chained_append {xs : List Lexeme} {x y : Lexeme} {ys : List Lexeme}
    (h : Chained (xs ++ x :: y :: ys)) : ∀ c cs, y.2 = c :: cs → x.1.more c = none := by
  induction xs with
  | nil => exact h.1
  | cons z zs ih =>
    cases zs with
    | nil => exact ih h.2
    | cons w ws => exact ih h.2

theorem places_next {src : Text} {q : Nat} {x y : Lexeme} (hx : EndsAt src q x)
    (hy : (q, y) ∈ places src) : ∀ c cs, y.2 = c :: cs → x.1.more c = none := by
  obtain ⟨p, hp, hpq⟩ := hx
  obtain ⟨pre, suf, h1, h2⟩ := placed_split hp
  have hpos := places_pos hp
  unfold places at hy
  rw [h1, placed_append, List.mem_append] at hy
  rcases hy with hy | hy
  · have := placed_range hy
    omega
  · rcases List.mem_cons.1 hy with hy | hy
    · cases hy; omega
    · cases suf with
      | nil => cases hy
      | cons z suf =>
        have hz := places_pos (src := src) (q := 0 + (lexText pre).length + x.2.length) (x := z) (by
          unfold places
          rw [h1, placed_append]
          simp [placed])
        rcases List.mem_cons.1 hy with hy | hy
        · cases hy
          have := lexemes_chained src
          rw [h1] at this
          exact chained_append this
        · have := (placed_range hy).1
          omega

theorem EndsAt.unique {src : Text} {p : Nat} {x y : Lexeme} (hx : EndsAt src p x)
    (hy : EndsAt src p y) : x = y := by
  obtain ⟨q, h1, h2⟩ := hx
  obtain ⟨r, h3, h4⟩ := hy
  have := places_pos h1
  have := places_pos h3
  rcases placed_apart h1 h3 with h | h | h
  · exact h.2
  · omega
  · omega

theorem EndsAt.pos {src : Text} {p : Nat} {x : Lexeme} (hx : EndsAt src p x) : 0 < p := by
  obtain ⟨q, h1, h2⟩ := hx
  have := places_pos h1
  omega

/-- No lexeme goes across `b`. -/
def Bdry (src : Text) (b : Nat) : Prop :=
  ∀ q x, (q, x) ∈ places src → b ≤ q ∨ q + x.2.length ≤ b

theorem bdry_place {src : Text} {b : Nat} {x : Lexeme} (h : (b, x) ∈ places src) : Bdry src b := by
  intro q y hy
  have := places_pos h
  rcases placed_apart h hy with ⟨rfl, -⟩ | h | h <;> omega

theorem Starts.bdry {src : Text} {b : Nat} (h : Starts src b) : Bdry src b := by
  obtain ⟨x, h, -⟩ := h
  exact bdry_place h

theorem EndsAt.bdry {src : Text} {b : Nat} {x : Lexeme} (h : EndsAt src b x) : Bdry src b := by
  obtain ⟨p, h1, h2⟩ := h
  intro q y hy
  rcases placed_apart h1 hy with ⟨rfl, rfl⟩ | h | h <;> omega

theorem Ends.bdry {src : Text} {b : Nat} (h : Ends src b) : Bdry src b := by
  obtain ⟨x, h, -⟩ := h
  exact h.bdry

/-- What precedes a token is complete. -/
theorem closed_before {src : Text} {p : Nat} {y : Lexeme} (hs : Starts src p) (hy : EndsAt src p y) :
    y.1.closed = true := by
  obtain ⟨x, hx, ht⟩ := hs
  have hn := places_next hy hx
  have hne := places_pos hx
  obtain ⟨s, u⟩ := x
  cases u with
  | nil => simp at hne
  | cons c cs =>
    have hm := hn c cs rfl
    have hsing := lexemes_single src _ (placed_mem hx)
    -- a line break begins white space
    have hnl : c ≠ '\n' := by
      rintro rfl
      have := hsing.2.1
      have hw : Lexing.start '\n' = .white := by decide
      simp only [lexemes, hw] at this
      cases cs with
      | nil =>
        simp only [lexFrom, List.cons.injEq, Prod.mk.injEq, and_true] at this
        rw [← this] at ht
        cases ht
      | cons d ds =>
        simp only [lexFrom, Lexing.more, List.cons.injEq, Prod.mk.injEq] at this
        exact absurd this.1.2.2 (by simp)
    obtain ⟨ys, yu⟩ := y
    cases ys with
    | line => simp [Lexing.more, hnl] at hm
    | block st => simp only [Lexing.more] at hm; split at hm <;> cases hm
    | quote q esc =>
      simp only [Lexing.more] at hm
      cases esc
      · simp only [Bool.false_eq_true, if_false, beq_iff_eq, hnl] at hm
        split at hm
        · cases hm
        · split at hm <;> cases hm
      · simp at hm
    | _ => rfl

/-! ### Edits -/

theorem flatMap_ne_nil {α : Type} {f : α → Text} {xs : List α} (h : xs.flatMap f ≠ []) :
    ∃ x ∈ xs, f x ≠ [] := by
  induction xs with
  | nil => exact absurd rfl h
  | cons x xs ih =>
    by_cases hx : f x = []
    · rw [List.flatMap_cons, hx, List.nil_append] at h
      obtain ⟨y, hy, hy'⟩ := ih h
      exact ⟨y, List.mem_cons_of_mem _ hy, hy'⟩
    · exact ⟨x, List.mem_cons_self .., hx⟩

theorem flatMap_mem_ne {α : Type} {f : α → Text} {xs : List α} {x : α} (hx : x ∈ xs) (h : f x ≠ []) :
    xs.flatMap f ≠ [] := by
  intro he
  exact h (List.flatMap_eq_nil_iff.1 he x hx)

theorem afters_tail {es : List Edit} {p : Nat} (h : ∀ e ∈ es, TailTxt (e.afterAt p)) :
    TailTxt (afters es p) := by
  unfold afters
  induction es with
  | nil => exact .nil
  | cons e es ih =>
    rw [List.flatMap_cons]
    exact (h e (List.mem_cons_self ..)).append (ih fun x hx => h x (List.mem_cons_of_mem _ hx))

theorem befores_head {es : List Edit} {p : Nat} (h : ∀ e ∈ es, HeadTxt (e.beforeAt p)) :
    HeadTxt (befores es p) := by
  unfold befores
  induction es with
  | nil => exact .nil
  | cons e es ih =>
    rw [List.reverse_cons, List.flatMap_append]
    refine HeadTxt.append (ih fun x hx => h x (List.mem_cons_of_mem _ hx)) ?_
    simpa using h e (List.mem_cons_self ..)

/-- The edits that are made for mutations. -/
theorem mem_fileEdits {o : Options} {first : Nat} {f : SourceFile} {e : Edit}
    (he : e ∈ fileEdits o first f) :
    (∃ m ∈ f.tree.post, ∃ id, e ∈ (m.apply f.lang o first id).edits) ∨
    (∃ k ∈ f.consts, e = .replace k.span.b (k.span.e - k.span.b) (natDec k.value)) ∨
    (∃ m ∈ f.tree.post, ∃ id, ∃ d ∈ (m.apply f.lang o first id).decls,
      e = .before (f.preludeOff.getD 0) [.txt d.render]) ∨
    (∃ n, e = .before (f.preludeOff.getD 0) [.txt (preludeText f.lang o first n)]) := by
  unfold fileEdits finishEdits at he
  simp only [List.mem_append, List.mem_map, List.mem_singleton] at he
  have hn : ∀ p ∈ numbered f.lang o.optimise first f.tree.post, p.2 ∈ f.tree.post := by
    intro p hp
    rw [← numbered_snd f.lang o.optimise first f.tree.post]
    exact List.mem_map_of_mem hp
  rcases he with ((he | ⟨k, hk, rfl⟩) | ⟨d, hd, rfl⟩) | rfl
  · rw [editsFrom_numbered, List.mem_flatMap] at he
    obtain ⟨p, hp, he⟩ := he
    exact .inl ⟨p.2, hn p hp, p.1, he⟩
  · exact .inr (.inl ⟨k, hk, rfl⟩)
  · rw [mem_sortedDecls, List.mem_map] at hd
    obtain ⟨g, hg, rfl⟩ := hd
    rw [declsFrom_numbered, List.mem_flatMap] at hg
    obtain ⟨p, hp, hg⟩ := hg
    exact .inr (.inr (.inl ⟨p.2, hn p hp, p.1, g, hg, rfl⟩))
  · exact .inr (.inr (.inr ⟨_, rfl⟩))

/-- Empty, or sealing. -/
def Shut (t : Text) : Prop := t = [] ∨ Seals t

theorem Shut.append {a b : Text} (ha : Shut a) (hb : Shut b) : Shut (a ++ b) := by
  rcases hb with rfl | hb
  · rw [List.append_nil]; exact ha
  · rcases ha with rfl | ha
    · exact .inr hb
    · exact .inr (Seals.append ha.plain hb)

theorem Shut.flatMap {α : Type} {f : α → Text} {xs : List α} (h : ∀ x ∈ xs, Shut (f x)) :
    Shut (xs.flatMap f) := by
  induction xs with
  | nil => exact .inl rfl
  | cons x xs ih =>
    rw [List.flatMap_cons]
    exact (h x (List.mem_cons_self ..)).append (ih fun y hy => h y (List.mem_cons_of_mem _ hy))

theorem HeadTxt.shut {t : Text} (h : HeadTxt t) : Shut t := by
  rcases h with rfl | ⟨h, -⟩
  · exact .inl rfl
  · exact .inr h

theorem TailTxt.shut {t : Text} (h : TailTxt t) : Shut t := by
  rcases h with rfl | ⟨h, -⟩
  · exact .inl rfl
  · exact .inr h

variable {o : Options} {first : Nat} {f : SourceFile}

theorem before_at (hN : NodesOk o f) {e : Edit} (he : e ∈ fileEdits o first f) (p : Nat) :
    Shut (e.beforeAt p) ∧ (e.beforeAt p ≠ [] →
      (∃ m ∈ f.tree.post, p ∈ m.opensAt) ∨ p = f.preludeOff.getD 0) := by
  rcases mem_fileEdits he with ⟨m, hm, id, he⟩ | ⟨k, hk, rfl⟩ | ⟨m, hm, id, d, hd, rfl⟩ | ⟨n, rfl⟩
  · have hk := m.edit_kind f.lang o first id (fun h => hN h m hm) e he
    cases hk with
    | @before q t hq ht =>
      simp only [Edit.beforeAt]
      split
      · rename_i h; subst h
        exact ⟨ht.shut, fun _ => .inl ⟨m, hm, hq⟩⟩
      · exact ⟨.inl rfl, fun h => absurd rfl h⟩
    | _ => exact ⟨.inl rfl, fun h => absurd rfl h⟩
  · exact ⟨.inl rfl, fun h => absurd rfl h⟩
  · simp only [Edit.beforeAt]
    split
    · rename_i h
      refine ⟨?_, fun _ => .inr h.symm⟩
      have := (d.render_head (m.decls_proper f.lang o first id d hd)).1.shut
      simpa [renderPieces, Piece.render] using this
    · exact ⟨.inl rfl, fun h => absurd rfl h⟩
  · simp only [Edit.beforeAt]
    split
    · rename_i h
      refine ⟨.inr ?_, fun _ => .inr h.symm⟩
      have := preludeText_seals f.lang o first n
      simpa [renderPieces, Piece.render] using this
    · exact ⟨.inl rfl, fun h => absurd rfl h⟩

theorem befores_shut (hN : NodesOk o f) (p : Nat) :
    Shut (befores (fileEdits o first f) p) ∧ (befores (fileEdits o first f) p ≠ [] →
      (∃ m ∈ f.tree.post, p ∈ m.opensAt) ∨ p = f.preludeOff.getD 0) := by
  constructor
  · exact Shut.flatMap fun e he => (before_at hN (List.mem_reverse.1 he) p).1
  · intro h
    obtain ⟨e, he, hne⟩ := flatMap_ne_nil h
    exact (before_at hN (List.mem_reverse.1 he) p).2 hne

/-- A statement whose extent ends with a comment. -/
def CommentEnd (f : SourceFile) (p : Nat) : Prop :=
  ∃ s, Mutation.stmt s ∈ f.tree.post ∧ p = s.extEnd ∧ s.extComment = true ∧ s.extSemi = false

theorem after_at (hN : NodesOk o f) (hT : Tokenised f) {e : Edit} (he : e ∈ fileEdits o first f)
    (p : Nat) :
    TailTxt (e.afterAt p) ∧ (e.afterAt p ≠ [] →
      ((∃ m ∈ f.tree.post, p ∈ m.closesAt) ∨ ∃ s, Mutation.stmt s ∈ f.tree.post ∧ p = s.extEnd) ∧
      (Ends f.src p ∨ ((∃ cs, e.afterAt p = '\n' :: cs) ∧
        ∃ x, EndsAt f.src p x ∧ (x.1 = .line ∨ x.1 = .comment)))) := by
  rcases mem_fileEdits he with ⟨m, hm, id, he⟩ | ⟨k, hk, rfl⟩ | ⟨m, hm, id, d, hd, rfl⟩ | ⟨n, rfl⟩
  · have hk := m.edit_kind f.lang o first id (fun h => hN h m hm) e he
    cases hk with
    | @after q t hq ht =>
      simp only [Edit.afterAt]
      split
      · rename_i h; subst h
        exact ⟨ht, fun _ => ⟨.inl ⟨m, hm, hq⟩, .inl (hT.closes m hm _ hq)⟩⟩
      · exact ⟨.inl rfl, fun h => absurd rfl h⟩
    | @closing s t hms htr ht hnl =>
      simp only [Edit.afterAt]
      split
      · rename_i h; subst h
        subst hms
        refine ⟨ht, fun _ => ⟨.inr ⟨s, hm, rfl⟩, ?_⟩⟩
        rcases hT.stmts s hm with h | ⟨h1, h2, h3⟩
        · exact .inl h
        · exact .inr ⟨hnl h1 h2, h3⟩
      · exact ⟨.inl rfl, fun h => absurd rfl h⟩
    | _ => exact ⟨.inl rfl, fun h => absurd rfl h⟩
  all_goals exact ⟨.inl rfl, fun h => absurd rfl h⟩

theorem afters_facts (hN : NodesOk o f) (hT : Tokenised f) (p : Nat) :
    TailTxt (afters (fileEdits o first f) p) ∧ (afters (fileEdits o first f) p ≠ [] →
      ((∃ m ∈ f.tree.post, p ∈ m.closesAt) ∨ ∃ s, Mutation.stmt s ∈ f.tree.post ∧ p = s.extEnd) ∧
      ∃ x, EndsAt f.src p x ∧ (x.1.isWhole = true ∨ x.1 = .comment ∨
        (x.1 = .line ∧ ∃ cs, afters (fileEdits o first f) p = '\n' :: cs))) := by
  refine ⟨afters_tail fun e he => (after_at hN hT he p).1, ?_⟩
  intro h
  obtain ⟨e, he, hne⟩ := flatMap_ne_nil h
  obtain ⟨h1, h2⟩ := (after_at hN hT he p).2 hne
  refine ⟨h1, ?_⟩
  rcases h2 with ⟨x, hx, hw⟩ | ⟨-, x, hx, hl | hc⟩
  · exact ⟨x, hx, .inl hw⟩
  · refine ⟨x, hx, .inr (.inr ⟨hl, ?_⟩)⟩
    -- every text that is put here begins with a line break
    have key : ∀ es : List Edit, (∀ e ∈ es, e ∈ fileEdits o first f) → afters es p ≠ [] →
        ∃ cs, afters es p = '\n' :: cs := by
      intro es
      induction es with
      | nil => intro _ h; exact absurd rfl h
      | cons d ds ih =>
        intro hsub hne
        have hd := after_at hN hT (hsub d (List.mem_cons_self ..)) p
        by_cases h0 : d.afterAt p = []
        · have e : afters (d :: ds) p = afters ds p := by simp [afters, h0]
          rw [e] at hne ⊢
          exact ih (fun e he => hsub e (List.mem_cons_of_mem _ he)) hne
        · rcases (hd.2 h0).2 with ⟨y, hy, hw⟩ | ⟨⟨cs, hcs⟩, -⟩
          · rw [hx.unique hy] at hl
            rw [hl] at hw
            cases hw
          · exact ⟨cs ++ afters ds p, by simp [afters, hcs]⟩
    exact key _ (fun _ h => h) h
  · exact ⟨x, hx, .inr (.inl hc)⟩

theorem BOp.str_pos (op : BOp) : 0 < op.str.length := by cases op <;> decide
theorem UOp.str_pos' (op : UOp) : 0 < op.str.length := by cases op <;> decide

/-- Replacements. -/
theorem replace_at (hN : NodesOk o f) {e : Edit} (he : e ∈ fileEdits o first f) (p : Nat) :
    e.replaceAt p = [] ∨
    (e.replaceAt p = t!"," ∧ ∃ s, Mutation.bin s ∈ f.tree.post ∧
      (Mutation.bin s).symbol f.lang = some ⟨p, p + s.op.str.length⟩) ∨
    (∃ k ∈ f.consts, p = k.span.b ∧ e.replaceAt p = natDec k.value) := by
  rcases mem_fileEdits he with ⟨m, hm, id, he⟩ | ⟨k, hk, rfl⟩ | ⟨m, hm, id, d, hd, rfl⟩ | ⟨n, rfl⟩
  · have hk := m.edit_kind f.lang o first id (fun h => hN h m hm) e he
    cases hk with
    | @comma s q hms hq hsym =>
      simp only [Edit.replaceAt]
      split
      · rename_i h; subst h; subst hms
        exact .inr (.inl ⟨rfl, s, hm, hsym⟩)
      · exact .inl rfl
    | @drop s q hms hq hsym =>
      simp only [Edit.replaceAt]
      split <;> exact .inl rfl
    | _ => exact .inl rfl
  · simp only [Edit.replaceAt]
    split
    · rename_i h
      exact .inr (.inr ⟨k, hk, h.symm, rfl⟩)
    · exact .inl rfl
  all_goals exact .inl rfl

theorem replaceSymbol_mem {q : Option Nat} {n : Nat} {t : Text} {b : Nat} (h : q = some b) :
    Edit.replace b n t ∈ replaceSymbol q n t := by subst h; exact List.mem_singleton.2 rfl

theorem mem_mut_edits {m : Mutation} (hm : m ∈ f.tree.post) :
    ∃ id, ∀ e ∈ (m.apply f.lang o first id).edits, e ∈ fileEdits o first f := by
  have h1 := numbered_snd f.lang o.optimise first f.tree.post
  rw [← h1] at hm
  obtain ⟨p, hp, rfl⟩ := List.mem_map.1 hm
  refine ⟨p.1, fun e he => ?_⟩
  unfold fileEdits finishEdits
  simp only [List.mem_append]
  refine .inl (.inl (.inl ?_))
  rw [editsFrom_numbered, List.mem_flatMap]
  exact ⟨p, hp, he⟩

theorem removed_iff (hN : NodesOk o f) (p : Nat) :
    removed (fileEdits o first f) p = true ↔ InSymbol f p ∨ InConst f p := by
  rw [removed, List.any_eq_true]
  constructor
  · rintro ⟨e, he, hr⟩
    rcases mem_fileEdits he with ⟨m, hm, id, he⟩ | ⟨k, hk, rfl⟩ | ⟨m, hm, id, d, hd, rfl⟩ | ⟨n, rfl⟩
    · have hk := m.edit_kind f.lang o first id (fun h => hN h m hm) e he
      cases hk with
      | @comma s q hms hq hsym =>
        simp only [Edit.removesAt, Bool.and_eq_true, decide_eq_true_eq] at hr
        exact .inl ⟨m, hm, _, hsym, hr⟩
      | @drop s q hms hq hsym =>
        simp only [Edit.removesAt, Bool.and_eq_true, decide_eq_true_eq] at hr
        exact .inl ⟨m, hm, _, hsym, hr⟩
      | _ => cases hr
    · simp only [Edit.removesAt, Bool.and_eq_true, decide_eq_true_eq] at hr
      exact .inr ⟨k, hk, hr.1, by omega⟩
    · cases hr
    · cases hr
  · rintro (⟨m, hm, sp, hsym, hhas⟩ | ⟨k, hk, hhas⟩)
    · obtain ⟨id, hid⟩ := mem_mut_edits (o := o) (first := first) hm
      cases m with
      | expr s => cases hsym
      | stmt s => cases hsym
      | un s =>
        cases hq : s.opOff with
        | none => simp [Mutation.symbol, hq] at hsym
        | some q =>
          simp only [Mutation.symbol, hq, Option.map_some, Option.some.injEq] at hsym
          subst hsym
          refine ⟨.replace q s.op.str.length [], hid _ ?_, ?_⟩
          · simp only [Mutation.apply, UnSite.apply, UnSite.edits]
            exact List.mem_append_left _ (replaceSymbol_mem hq)
          · simpa [Edit.removesAt, Span.has] using hhas
      | bin s =>
        simp only [Mutation.symbol] at hsym
        split at hsym
        · cases hsym
        · rename_i hc
          cases hq : s.opOff with
          | none => simp [hq] at hsym
          | some q =>
            simp only [hq, Option.map_some, Option.some.injEq] at hsym
            subst hsym
            refine ⟨.replace q s.op.str.length t!",", hid _ ?_, ?_⟩
            · simp only [Mutation.apply, BinSite.apply]
              rw [if_neg hc]
              exact List.mem_append_left _ (replaceSymbol_mem hq)
            · simpa [Edit.removesAt, Span.has] using hhas
    · refine ⟨.replace k.span.b (k.span.e - k.span.b) (natDec k.value), ?_, ?_⟩
      · unfold fileEdits finishEdits
        simp only [List.mem_append, List.mem_map]
        exact .inl (.inl (.inr ⟨k, hk, rfl⟩))
      · obtain ⟨h1, h2⟩ := hhas
        simp only [Edit.removesAt, Bool.and_eq_true, decide_eq_true_eq]
        omega

/-- Nothing happens inside of lexemes. -/
theorem fileEdits_uniform (hN : NodesOk o f) (hT : Tokenised f) :
    Uniform (fileEdits o first f) 0 (lexemes f.src) := by
  intro p x hx i h1 h2
  have hx : (p, x) ∈ places f.src := hx
  have nb : ¬ Bdry f.src i := fun h => by
    have := h p x hx
    omega
  have hb : befores (fileEdits o first f) i = [] := by
    apply Classical.byContradiction
    intro h
    rcases (befores_shut hN i).2 h with ⟨m, hm, hp⟩ | hp
    · exact nb (hT.opens m hm i hp).bdry
    · rcases hT.prelude with h0 | ⟨h0, -⟩
      · omega
      · exact nb (hp ▸ h0.bdry)
  have ha : afters (fileEdits o first f) i = [] := by
    apply Classical.byContradiction
    intro h
    obtain ⟨-, y, hy, -⟩ := (afters_facts hN hT i).2 h
    exact nb hy.bdry
  have hr : Dredd.replacements (fileEdits o first f) i = [] := by
    apply Classical.byContradiction
    intro h
    obtain ⟨e, he, hne⟩ := flatMap_ne_nil h
    rcases replace_at hN he i with h | ⟨-, s, hs, hsym⟩ | ⟨k, hk, hp, -⟩
    · exact hne h
    · obtain ⟨y, hy, -⟩ := hT.symbols _ hs _ hsym
      exact nb (bdry_place hy)
    · exact nb (hp ▸ (hT.consts k hk).opens.bdry)
  refine ⟨by simp [slot, hb, ha, hr], ?_⟩
  rw [Bool.eq_iff_iff, removed_iff hN, removed_iff hN]
  have hs : InSymbol f i ↔ InSymbol f p := by
    have key : ∀ m ∈ f.tree.post, ∀ sp, m.symbol f.lang = some sp → (sp.has i ↔ sp.has p) := by
      intro m hm sp hsym
      obtain ⟨y, hy, -, hlen⟩ := hT.symbols _ hm _ hsym
      have := placed_apart hx hy
      unfold Span.has
      rcases this with ⟨rfl, rfl⟩ | h | h <;> omega
    constructor
    · rintro ⟨m, hm, sp, hsym, h⟩; exact ⟨m, hm, sp, hsym, (key m hm sp hsym).1 h⟩
    · rintro ⟨m, hm, sp, hsym, h⟩; exact ⟨m, hm, sp, hsym, (key m hm sp hsym).2 h⟩
  have hc : InConst f i ↔ InConst f p := by
    have key : ∀ k ∈ f.consts, (k.span.has i ↔ k.span.has p) := by
      intro k hk
      have b1 := (hT.consts k hk).opens.bdry p x hx
      have b2 := (hT.consts k hk).closes.bdry p x hx
      unfold Span.has
      omega
    constructor
    · rintro ⟨k, hk, h⟩; exact ⟨k, hk, (key k hk).1 h⟩
    · rintro ⟨k, hk, h⟩; exact ⟨k, hk, (key k hk).2 h⟩
  rw [hs, hc]

end Dredd
