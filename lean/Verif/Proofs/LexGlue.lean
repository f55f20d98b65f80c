/-
Nothing that is inserted goes together with its neighbours.
-/
import Verif.Proofs.LexFile

namespace Dredd

variable {o : Options} {first : Nat} {f : SourceFile}

theorem expr_befores (l : Lang) (o : Options) (first id : Nat) (s : ExprSite)
    (hn : o.showAst = true → '*' ∉ s.node) :
    befores ((Mutation.expr s).apply l o first id).edits s.span.b ≠ [] ∧
      (s.precIdent = true → ∃ cs, befores ((Mutation.expr s).apply l o first id).edits s.span.b = ' ' :: cs) := by
  obtain ⟨pre, suf, h1, -, h2, -, h3⟩ := s.edits_texts l o (id - first) hn
  have e : ((Mutation.expr s).apply l o first id).edits = [.before s.span.b pre, .after s.span.e suf] := h1
  have e2 : befores ((Mutation.expr s).apply l o first id).edits s.span.b = renderPieces pre := by
    rw [e]; simp [befores, Edit.beforeAt]
  rw [e2]
  exact ⟨h2, h3⟩

/-- The text that comes first at an offset is that of the last mutation there. -/
theorem muts_first {l : Lang} {p : Nat} {c : Char} (ms : List (Nat × Mutation))
    (hn : o.showAst = true → ∀ m ∈ ms, '*' ∉ m.2.node) :
    ∀ cs, befores (ms.flatMap fun q => (q.2.apply l o first q.1).edits) p = c :: cs →
    ∃ xs m ys id cs', ms.map (·.2) = xs ++ m :: ys ∧
      (∀ s, Mutation.expr s ∈ ys → s.span.b ≠ p) ∧
      befores (m.apply l o first id).edits p = c :: cs' := by
  induction ms with
  | nil => intro cs h; cases h
  | cons a ms ih =>
    intro cs h
    rw [List.flatMap_cons, befores_append] at h
    cases hb : befores (ms.flatMap fun q => (q.2.apply l o first q.1).edits) p with
    | nil =>
      rw [hb, List.nil_append] at h
      refine ⟨[], a.2, ms.map (·.2), a.1, cs, rfl, ?_, h⟩
      rintro s hs rfl
      obtain ⟨q, hq, hqs⟩ := List.mem_map.1 hs
      have hne := (expr_befores l o first q.1 s (fun h => by
        have := hn h q (List.mem_cons_of_mem _ hq)
        rw [hqs] at this; exact this)).1
      rw [← hqs] at hne
      have hnil : ∀ e ∈ (ms.flatMap fun q => (q.2.apply l o first q.1).edits), e.beforeAt s.span.b = [] := by
        intro e he
        have := List.flatMap_eq_nil_iff.1 hb e (List.mem_reverse.2 he)
        exact this
      apply hne
      refine List.flatMap_eq_nil_iff.2 fun e he => hnil e ?_
      exact List.mem_flatMap.2 ⟨q, hq, List.mem_reverse.1 he⟩
    | cons d ds =>
      rw [hb, List.cons_append, List.cons.injEq] at h
      obtain ⟨rfl, -⟩ := h
      obtain ⟨xs, m, ys, id, cs', h1, h2, h3⟩ := ih (fun h m hm => hn h m (List.mem_cons_of_mem _ hm)) ds hb
      exact ⟨a.2 :: xs, m, ys, id, cs', by simp [h1], h2, h3⟩

theorem befores_split (p : Nat) :
    ∃ D, befores (fileEdits o first f) p =
      (if f.preludeOff.getD 0 = p then
        preludeText f.lang o first (first + fileCount o.optimise f - first) ++ D else []) ++
      befores (editsFrom f.lang o first first f.tree.post) p := by
  unfold fileEdits finishEdits
  dsimp only
  simp only [befores_append]
  have hc : befores (f.consts.map fun c => Edit.replace c.span.b (c.span.e - c.span.b) (natDec c.value)) p = [] := by
    refine List.flatMap_eq_nil_iff.2 fun e he => ?_
    obtain ⟨k, -, rfl⟩ := List.mem_map.1 (List.mem_reverse.1 he)
    rfl
  rw [hc, List.nil_append]
  by_cases hp : f.preludeOff.getD 0 = p
  · simp only [if_pos hp]
    refine ⟨befores ((sortedDecls ((declsFrom f.lang o first first f.tree.post).map MutFn.render)).map
      fun d => Edit.before (f.preludeOff.getD 0) [.txt d]) p, ?_⟩
    rw [List.append_assoc]
    congr 1
    simp [befores, Edit.beforeAt, hp, renderPieces, Piece.render]
  · simp only [if_neg hp]
    refine ⟨[], ?_⟩
    have hd : befores ((sortedDecls ((declsFrom f.lang o first first f.tree.post).map MutFn.render)).map
        fun d => Edit.before (f.preludeOff.getD 0) [.txt d]) p = [] := by
      refine List.flatMap_eq_nil_iff.2 fun e he => ?_
      obtain ⟨k, -, rfl⟩ := List.mem_map.1 (List.mem_reverse.1 he)
      simp [Edit.beforeAt, hp]
    rw [hd]
    simp [befores, Edit.beforeAt, hp]

theorem befores_first (hN : NodesOk o f) (hT : Tokenised f) {p : Nat} {c : Char} {cs : Text}
    (h : befores (fileEdits o first f) p = c :: cs) :
    (f.preludeOff.getD 0 = p ∧ c = '/') ∨
    (f.preludeOff.getD 0 ≠ p ∧ headChar c = true ∧ (∃ m ∈ f.tree.post, p ∈ m.opensAt) ∧
      (EndsWord f.src p → c = ' ')) := by
  obtain ⟨D, hD⟩ := befores_split (o := o) (first := first) (f := f) p
  rw [h] at hD
  by_cases hp : f.preludeOff.getD 0 = p
  · rw [if_pos hp] at hD
    obtain ⟨cs', hcs⟩ := preludeText_head f.lang o first (first + fileCount o.optimise f - first)
    rw [hcs] at hD
    simp only [List.cons_append, List.cons.injEq] at hD
    exact .inl ⟨hp, hD.1⟩
  · rw [if_neg hp, List.nil_append, editsFrom_numbered] at hD
    have hsnd := numbered_snd f.lang o.optimise first f.tree.post
    obtain ⟨xs, m, ys, id, cs', h1, h2, h3⟩ := muts_first (o := o) (first := first) (l := f.lang)
      (numbered f.lang o.optimise first f.tree.post)
      (fun h q hq => hN h q.2 (by rw [← hsnd]; exact List.mem_map_of_mem hq)) cs hD.symm
    rw [hsnd] at h1
    have hm : m ∈ f.tree.post := by rw [h1]; simp
    have hhead : HeadTxt (befores (m.apply f.lang o first id).edits p) := by
      refine befores_head fun e he => ?_
      have hk := m.edit_kind f.lang o first id (fun h => hN h m hm) e he
      cases hk with
      | before hq ht =>
        simp only [Edit.beforeAt]
        split
        · exact ht
        · exact .nil
      | _ => exact .nil
    have hopen : p ∈ m.opensAt := by
      have hne : befores (m.apply f.lang o first id).edits p ≠ [] := by rw [h3]; simp
      obtain ⟨e, he, hne⟩ := flatMap_ne_nil hne
      have hk := m.edit_kind f.lang o first id (fun h => hN h m hm) e (List.mem_reverse.1 he)
      cases hk with
      | before hq ht =>
        simp only [Edit.beforeAt] at hne
        split at hne
        · rename_i h; rw [← h]; exact hq
        · exact absurd rfl hne
      | _ => exact absurd rfl hne
    refine .inr ⟨hp, ?_, ⟨m, hm, hopen⟩, ?_⟩
    · rw [h3] at hhead
      rcases hhead with h | ⟨-, d, ds, h, hd⟩
      · cases h
      · simp only [List.cons.injEq] at h
        rw [h.1]; exact hd
    · intro hw
      obtain ⟨s, hs, hsp, hprec⟩ := hT.words xs m ys h1 p hopen hw
      rcases List.mem_cons.1 hs with hs | hs
      · subst hs
        obtain ⟨ds, hds⟩ := (expr_befores f.lang o first id s (fun h => hN h _ hm)).2 hprec
        rw [hsp, h3] at hds
        simp only [List.cons.injEq] at hds
        exact hds.1
      · exact absurd hsp (h2 s hs)

/-! ### What may come next -/

theorem headChar_mem {c : Char} (h : headChar c = true) : c ∈ [('_' : Char), 's', 'i', '[', ' '] := by
  simp only [headChar, Bool.or_eq_true, beq_iff_eq] at h
  simp only [List.mem_cons, List.not_mem_nil, or_false]
  rcases h with (((h | h) | h) | h) | h <;> simp [h]

theorem more_head {s : Lexing} {c : Char} (hs : s.closed = true) (hw : s.isWord = false)
    (hc : headChar c = true) : s.more c = none := by
  have hc := headChar_mem hc
  have h1 : c ∉ [('>' : Char), '+', '-', '<', '=', '&', '|', '.', ':', '#', '*', '%'] := by
    have key : ∀ d ∈ [('_' : Char), 's', 'i', '[', ' '],
      d ∉ [('>' : Char), '+', '-', '<', '=', '&', '|', '.', ':', '#', '*', '%'] := by decide
    exact key c hc
  have h2 : c ≠ '/' ∧ c ≠ '*' ∧ c.isDigit = false := by
    have key : ∀ d ∈ [('_' : Char), 's', 'i', '[', ' '], d ≠ '/' ∧ d ≠ '*' ∧ d.isDigit = false := by decide
    exact key c hc
  cases s with
  | white => rfl
  | comment => rfl
  | punct u =>
    have : u ++ [c] ∉ longPuncts := fun h => h1 (longPuncts_last _ _ h).1
    simp [Lexing.more, h2, this]
  | word => cases hw
  | number _ => cases hw
  | literal => cases hw
  | line => cases hs
  | block _ => cases hs
  | quote _ _ => cases hs

theorem more_space {s : Lexing} (hs : s.closed = true) : s.more ' ' = none :=
  more_apart hs (by decide)

theorem more_slash {s : Lexing} (hs : s.closed = true) (hu : s ≠ .punct t!"/") : s.more '/' = none := by
  cases s with
  | white => rfl
  | comment => rfl
  | word => rfl
  | number e => cases e <;> rfl
  | literal => rfl
  | line => cases hs
  | block _ => cases hs
  | quote _ _ => cases hs
  | punct u =>
    have hu : u ≠ t!"/" := fun h => hu (by rw [h])
    have : u ++ ['/'] ∉ longPuncts := fun h => by
      have := (longPuncts_last _ _ h).1
      revert this; decide
    simp [Lexing.more, hu, this]

theorem more_digit {s : Lexing} {c : Char} (hs : s.closed = true) (hw : s.isWord = false)
    (hu : s ≠ .punct t!".") (hc : c.isDigit = true) : s.more c = none := by
  have hne : ∀ d : Char, d.isDigit = false → c ≠ d := by
    rintro d hd rfl
    rw [hd] at hc; cases hc
  cases s with
  | white => rfl
  | comment => rfl
  | word => cases hw
  | number e => cases hw
  | literal => cases hw
  | line => cases hs
  | block _ => cases hs
  | quote _ _ => cases hs
  | punct u =>
    have hu : u ≠ t!"." := fun h => hu (by rw [h])
    have : u ++ [c] ∉ longPuncts := fun h => by
      have := (longPuncts_last _ _ h).1
      simp only [List.mem_cons, List.not_mem_nil, or_false] at this
      rcases this with h | h | h | h | h | h | h | h | h | h | h | h <;> exact hne _ (by decide) h
    simp [Lexing.more, hu, this, hne '/' (by decide), hne '*' (by decide)]

theorem closed_of_whole {s : Lexing} (h : s.isWhole = true) : s.closed = true := by
  cases s <;> first | rfl | cases h

/-- The kind of a lexeme that is a punctuator is its text. -/
theorem lexFrom_punct (s : Lexing) (u t : Text) (h : ∀ v, s = .punct v → v = u) :
    ∀ x ∈ lexFrom s u t, ∀ v, x.1 = .punct v → v = x.2 := by
  induction t generalizing s u with
  | nil => intro x hx; rw [List.mem_singleton.1 hx]; exact h
  | cons c cs ih =>
    intro x hx
    simp only [lexFrom] at hx
    have hst : ∀ v, Lexing.start c = .punct v → v = [c] := by
      intro v hv
      unfold Lexing.start at hv
      split at hv; · cases hv
      split at hv; · cases hv
      split at hv; · cases hv
      split at hv; · cases hv
      cases hv; rfl
    cases hm : s.more c with
    | none =>
      rw [hm] at hx
      rcases List.mem_cons.1 hx with rfl | hx
      · exact h
      · exact ih _ _ hst x hx
    | some s' =>
      rw [hm] at hx
      refine ih s' (u ++ [c]) ?_ x hx
      intro v hv
      subst hv
      cases s with
      | punct w =>
        have := h w rfl
        subst this
        simp only [Lexing.more] at hm
        split at hm; · cases hm
        split at hm; · cases hm
        split at hm; · cases hm
        split at hm
        · cases hm; rfl
        · cases hm
      | white => cases hm
      | comment => cases hm
      | word => simp only [Lexing.more] at hm; split at hm <;> cases hm
      | literal => simp only [Lexing.more] at hm; split at hm <;> cases hm
      | number e =>
        simp only [Lexing.more] at hm
        split at hm; · cases hm
        split at hm <;> cases hm
      | line => simp only [Lexing.more] at hm; split at hm <;> cases hm
      | block st => simp only [Lexing.more] at hm; split at hm <;> cases hm
      | quote q e =>
        simp only [Lexing.more] at hm
        split at hm; · cases hm
        split at hm; · cases hm
        split at hm; · cases hm
        split at hm <;> cases hm

theorem place_punct {src : Text} {p : Nat} {x : Lexeme} (h : EndsAt src p x) (v : Text)
    (hv : x.1 = .punct v) : v = x.2 := by
  obtain ⟨q, hq, -⟩ := h
  have hm := placed_mem hq
  cases src with
  | nil => cases hm
  | cons c cs =>
    refine lexFrom_punct (.start c) [c] cs ?_ x hm v hv
    intro v hv
    unfold Lexing.start at hv
    split at hv; · cases hv
    split at hv; · cases hv
    split at hv; · cases hv
    split at hv; · cases hv
    cases hv; rfl

theorem digit_char {c : Char} (h : IsDigit c) : c.isDigit = true := by
  unfold IsDigit at h
  have h1 : ('0' : Char).val ≤ c.val := by
    rw [UInt32.le_iff_toNat_le]; exact h.1
  have h2 : c.val ≤ ('9' : Char).val := by
    rw [UInt32.le_iff_toNat_le]; exact h.2
  simp only [Char.isDigit, Bool.and_eq_true, decide_eq_true_eq]
  exact ⟨h1, h2⟩

theorem digits_end (t : Text) (h : ∀ c ∈ t, IsDigit c) : lexEnd (.number false) t = .number false := by
  induction t with
  | nil => rfl
  | cons c cs ih =>
    have hc := h c (List.mem_cons_self ..)
    have hd := digit_char hc
    have hw : wordChar c = true := by simp [wordChar, Char.isAlphanum, hd]
    have he : (c == 'e' || c == 'E' || c == 'p' || c == 'P') = false := by
      simp only [Bool.or_eq_false_iff, beq_eq_false_iff_ne]
      unfold IsDigit at hc
      refine ⟨⟨⟨?_, ?_⟩, ?_⟩, ?_⟩ <;> (rintro rfl; revert hc; decide)
    have hm : Lexing.more (.number false) c = some (.number false) := by
      simp only [Lexing.more, hw, Bool.true_or, if_true, he]
    rw [lexEnd, hm]
    exact ih fun d hd => h d (List.mem_cons_of_mem _ hd)

theorem digits_endSt {t : Text} (h : ∀ c ∈ t, IsDigit c) (hne : t ≠ []) :
    endSt t = some (.number false) := by
  cases t with
  | nil => exact absurd rfl hne
  | cons c cs =>
    have hc := h c (List.mem_cons_self ..)
    have hd := digit_char hc
    have hw : c.isWhitespace = false := by
      have : c.isWhitespace = true → False := by
        intro hw
        simp only [Char.isWhitespace, Bool.or_eq_true, decide_eq_true_eq] at hw
        unfold IsDigit at hc
        rcases hw with (((h | h) | h) | h) <;> (subst h; revert hc; decide)
      cases h : c.isWhitespace with
      | false => rfl
      | true => exact absurd h this
    have hs : Lexing.start c = .number false := by simp [Lexing.start, hw, hd]
    simp only [endSt, hs, digits_end cs fun d hd => h d (List.mem_cons_of_mem _ hd)]

/-! ### The state between two lexemes -/

/-- What may be being read before the original lexeme at `p`. -/
structure BetweenLex (f : SourceFile) (p : Nat) (σ : Option Lexing) : Prop where
  consts : ∀ k ∈ f.consts, k.span.b < p → p < k.span.e → σ = some (.number false)
  kinds : σ = none ∨ (∃ s, σ = some s ∧ Done s) ∨ (∃ y, EndsAt f.src p y ∧ σ = some y.1) ∨
    (∃ k ∈ f.consts, k.span.b < p ∧ p ≤ k.span.e ∧ σ = some (.number false)) ∨
    (∃ s, Mutation.un s ∈ f.tree.post ∧ p = s.span.e ∧ (∀ m ∈ f.tree.post, p ∉ m.opensAt) ∧
      f.preludeOff.getD 0 ≠ p ∧ ∀ x, σ = some x → x.closed = true)

theorem number_sealed {c : Char} (h : sealChar c = true) : Lexing.more (.number false) c = none :=
  more_apart rfl (apart_of_seal h)

theorem slot_cases {es : List Edit} {p : Nat} {c : Char} {cs : Text} (h : slot es p = c :: cs) :
    (∃ d, befores es p = c :: d) ∨ (befores es p = [] ∧ ∃ d, afters es p = c :: d) ∨
      (befores es p = [] ∧ afters es p = [] ∧ ∃ d, Dredd.replacements es p = c :: d) := by
  unfold slot at h
  cases hb : befores es p with
  | cons x xs =>
    rw [hb] at h
    simp only [List.cons_append, List.cons.injEq] at h
    exact .inl ⟨xs, by rw [h.1]⟩
  | nil =>
    rw [hb, List.nil_append] at h
    cases ha : afters es p with
    | cons x xs =>
      rw [ha] at h
      simp only [List.cons_append, List.cons.injEq] at h
      exact .inr (.inl ⟨rfl, xs, by rw [h.1]⟩)
    | nil =>
      rw [ha, List.nil_append] at h
      exact .inr (.inr ⟨rfl, rfl, _, h⟩)

/-- What is replaced begins with a comma or a digit. -/
theorem replacements_first (hN : NodesOk o f) {p : Nat} {c : Char} {cs : Text}
    (h : Dredd.replacements (fileEdits o first f) p = c :: cs) :
    (c = ',' ∧ ∃ s, Mutation.bin s ∈ f.tree.post ∧
      (Mutation.bin s).symbol f.lang = some ⟨p, p + s.op.str.length⟩) ∨
    (IsDigit c ∧ ∃ k ∈ f.consts, p = k.span.b) := by
  have key : ∀ es : List Edit, (∀ e ∈ es, e ∈ fileEdits o first f) → ∀ cs,
      Dredd.replacements es p = c :: cs → ∃ e ∈ es, ∃ d, e.replaceAt p = c :: d := by
    intro es
    induction es with
    | nil => intro _ cs h; cases h
    | cons e es ih =>
      intro hsub cs h
      rw [Dredd.replacements, List.flatMap_cons] at h
      cases he : e.replaceAt p with
      | nil =>
        rw [he, List.nil_append] at h
        obtain ⟨d, hd, hd'⟩ := ih (fun x hx => hsub x (List.mem_cons_of_mem _ hx)) cs h
        exact ⟨d, List.mem_cons_of_mem _ hd, hd'⟩
      | cons x xs =>
        rw [he, List.cons_append, List.cons.injEq] at h
        exact ⟨e, List.mem_cons_self .., xs, by rw [he, h.1]⟩
  obtain ⟨e, he, d, hd⟩ := key _ (fun _ h => h) cs h
  rcases replace_at hN he p with h | ⟨h, hs⟩ | ⟨k, hk, hp, h⟩
  · rw [h] at hd; cases hd
  · rw [h] at hd; cases hd; exact .inl ⟨rfl, hs⟩
  · refine .inr ⟨?_, k, hk, hp⟩
    refine (natDec_spec k.value).2.1 c ?_
    rw [← h, hd]; exact List.mem_cons_self ..

theorem slot_first (hN : NodesOk o f) (hT : Tokenised f) {p : Nat} {σ : Option Lexing}
    (hI : BetweenLex f p σ) {c : Char} {cs : Text} (h : slot (fileEdits o first f) p = c :: cs) : Ok σ c := by
  intro s hs
  have hloc0 : ∀ y, EndsAt f.src p y → f.preludeOff.getD 0 = p → Starts f.src p ∧ y.2 ≠ t!"/" := by
    intro y hy hp
    rcases hT.prelude with h0 | ⟨h1, h2⟩
    · have := hy.pos
      omega
    · rw [hp] at h1 h2
      exact ⟨h1, h2 y hy⟩
  rcases hI.kinds with h0 | ⟨s', hs', hd⟩ | ⟨y, hy, hσ⟩ | ⟨k, hk, hb, he, hσ⟩ | ⟨u, hu, hp, hno, hl, hcl⟩
  · rw [h0] at hs; cases hs
  · rw [hs'] at hs; cases hs; exact hd c
  · rw [hσ] at hs; cases hs
    rcases slot_cases h with ⟨d, hd⟩ | ⟨-, d, hd⟩ | ⟨-, -, d, hd⟩
    · rcases befores_first hN hT hd with ⟨hp, rfl⟩ | ⟨-, hc, ⟨m, hm, ho⟩, hw⟩
      · obtain ⟨h1, h2⟩ := hloc0 y hy hp
        refine more_slash (closed_before h1 hy) fun hpu => h2 ?_
        exact (place_punct hy _ hpu).symm
      · have hcl := closed_before (hT.opens m hm p ho) hy
        cases hyw : y.1.isWord with
        | false => exact more_head hcl hyw hc
        | true => rw [hw ⟨y, hy, hyw⟩]; exact more_space hcl
    · obtain ⟨ht, hx⟩ := afters_facts (first := first) hN hT p
      rcases ht with ht | ⟨-, c', cs', ht, hc'⟩
      · rw [ht] at hd; cases hd
      · have e : c' = c := by rw [ht] at hd; simp only [List.cons.injEq] at hd; exact hd.1
        subst e
        obtain ⟨-, x, hxe, hx⟩ := hx (by rw [hd]; simp)
        rw [hy.unique hxe]
        rcases hx with hx | hx | ⟨hx, ds, hnl⟩
        · exact more_apart (closed_of_whole hx) (apart_of_seal hc')
        · rw [hx]; rfl
        · have e : c' = '\n' := by rw [hd] at hnl; simp only [List.cons.injEq] at hnl; exact hnl.1
          rw [hx, e]; rfl
    · rcases replacements_first hN hd with ⟨rfl, s, hs, hsym⟩ | ⟨hdig, k, hk, rfl⟩
      · obtain ⟨x, hx, htok, -⟩ := hT.symbols _ hs _ hsym
        exact more_apart (closed_before ⟨x, hx, htok⟩ hy) (by decide)
      · obtain ⟨h1, h2⟩ := (hT.consts k hk).before y hy
        refine more_digit (closed_before (hT.consts k hk).opens hy) h1 (fun hpu => h2 ?_) (digit_char hdig)
        exact (place_punct hy _ hpu).symm
  · rw [hσ] at hs; cases hs
    have hK := hT.consts k hk
    rcases slot_cases h with ⟨d, hd⟩ | ⟨-, d, hd⟩ | ⟨-, -, d, hd⟩
    · exfalso
      rcases (befores_shut (first := first) hN p).2 (by rw [hd]; simp) with ⟨m, hm, ho⟩ | hp
      · have := (hK.muts m hm).1 p ho
        omega
      · have := hK.prelude
        omega
    · rcases (afters_facts (first := first) hN hT p).1 with ht | ⟨-, c', cs', ht, hc'⟩
      · rw [ht] at hd; cases hd
      · have e : c' = c := by rw [ht] at hd; simp only [List.cons.injEq] at hd; exact hd.1
        subst e
        exact number_sealed hc'
    · rcases replacements_first hN hd with ⟨rfl, -⟩ | ⟨-, k', hk', rfl⟩
      · exact number_sealed (by decide)
      · exfalso
        rcases hK.others k' hk' with rfl | h | h
        · omega
        · have := (hT.consts k' hk').nonempty
          omega
        · omega
  · have hcl := hcl s hs
    rcases slot_cases h with ⟨d, hd⟩ | ⟨-, d, hd⟩ | ⟨-, ha, -⟩
    · exfalso
      rcases (befores_shut (first := first) hN p).2 (by rw [hd]; simp) with ⟨m, hm, ho⟩ | hp
      · exact hno m hm ho
      · exact hl hp.symm
    · rcases (afters_facts (first := first) hN hT p).1 with ht | ⟨-, c', cs', ht, hc'⟩
      · rw [ht] at hd; cases hd
      · have e : c' = c := by rw [ht] at hd; simp only [List.cons.injEq] at hd; exact hd.1
        subst e
        exact more_apart hcl (apart_of_seal hc')
    · exfalso
      obtain ⟨id, hid⟩ := mem_mut_edits (o := o) (first := first) hu
      obtain ⟨pre, suf, e1, -, -, -, e5⟩ := u.edits_texts f.lang o (id - first) (fun h => hN h _ hu)
      have hmem : Edit.after u.span.e suf ∈ fileEdits o first f := by
        refine hid _ ?_
        show _ ∈ u.edits f.lang o (id - first)
        rw [e1]; simp
      exact flatMap_mem_ne hmem (f := Edit.afterAt p) (by simp [Edit.afterAt, hp, e5]) ha

theorem replacements_shut (hN : NodesOk o f) {p : Nat} (hk : ∀ k ∈ f.consts, p ≠ k.span.b) :
    Shut (Dredd.replacements (fileEdits o first f) p) := by
  refine Shut.flatMap fun e he => ?_
  rcases replace_at hN he p with h | ⟨h, -⟩ | ⟨k, hk', hp, -⟩
  · exact .inl h
  · rw [h]; exact .inr (seals_char (by decide))
  · exact absurd hp (hk k hk')

theorem slot_shut (hN : NodesOk o f) (hT : Tokenised f) {p : Nat} (hk : ∀ k ∈ f.consts, p ≠ k.span.b) :
    Shut (slot (fileEdits o first f) p) :=
  ((befores_shut hN p).1.append (afters_facts hN hT p).1.shut).append (replacements_shut hN hk)

theorem slot_const (hN : NodesOk o f) (hT : Tokenised f) {k : ConstRewrite} (hk : k ∈ f.consts) :
    slot (fileEdits o first f) k.span.b ≠ [] ∧
      endSt (slot (fileEdits o first f) k.span.b) = some (.number false) := by
  have hK := hT.consts k hk
  have hdig : ∀ c ∈ Dredd.replacements (fileEdits o first f) k.span.b, IsDigit c := by
    intro c hc
    obtain ⟨e, he, hce⟩ := List.mem_flatMap.1 hc
    rcases replace_at hN he k.span.b with h | ⟨-, s, hs, hsym⟩ | ⟨k', -, -, h⟩
    · rw [h] at hce; cases hce
    · have := (hK.muts _ hs).2.2.1 _ hsym
      have := s.op.str_pos
      have := hK.nonempty
      simp only at *
      omega
    · rw [h] at hce
      exact (natDec_spec k'.value).2.1 c hce
  have hmem : Edit.replace k.span.b (k.span.e - k.span.b) (natDec k.value) ∈ fileEdits o first f := by
    unfold fileEdits finishEdits
    simp only [List.mem_append, List.mem_map]
    exact .inl (.inl (.inr ⟨k, hk, rfl⟩))
  have hne : Dredd.replacements (fileEdits o first f) k.span.b ≠ [] :=
    flatMap_mem_ne hmem (by simp [Edit.replaceAt, (natDec_spec k.value).1])
  have hsh := (befores_shut (first := first) hN k.span.b).1.append (afters_facts (first := first) hN hT k.span.b).1.shut
  unfold slot
  refine ⟨by simp [hne], ?_⟩
  rcases hsh with h | h
  · rw [h, List.nil_append]; exact digits_endSt hdig hne
  · obtain ⟨s, h1, h2⟩ := h.done
    cases hr : Dredd.replacements (fileEdits o first f) k.span.b with
    | nil => exact absurd hr hne
    | cons c cs =>
      rw [endSt_append _ _ _ (fun x hx => by rw [h1] at hx; cases hx; exact h2 c), ← hr]
      exact digits_endSt hdig hne

theorem done_closed {s : Lexing} (hd : Done s) : s.closed = true := by
  cases s with
  | line => exact absurd (hd 'a') (by decide)
  | block st => exact absurd (hd 'a') (by cases st <;> decide)
  | quote q e =>
    have := hd 'a'
    simp only [Lexing.more] at this
    split at this
    · cases this
    · rw [if_neg (by decide), if_neg (by decide)] at this
      split at this <;> cases this
  | _ => rfl

theorem fileEdits_glued (hN : NodesOk o f) (hT : Tokenised f) :
    ∀ (suf pre : List Lexeme) (σ : Option Lexing), lexemes f.src = pre ++ suf →
      BetweenLex f (lexText pre).length σ → Glued (fileEdits o first f) (lexText pre).length σ suf := by
  intro suf
  induction suf with
  | nil => intro pre σ _ hI c cs h; exact slot_first hN hT hI h
  | cons x suf ih =>
    intro pre σ hL hI
    have hpl : ((lexText pre).length, x) ∈ places f.src := by
      unfold places
      rw [hL, placed_append]
      simp [placed]
    have hpos := places_pos hpl
    have hL' : lexemes f.src = (pre ++ [x]) ++ suf := by simp [hL]
    have hlen : (lexText (pre ++ [x])).length = (lexText pre).length + x.2.length := by
      simp [lexText]
    have ih := fun σ' => ih (pre ++ [x]) σ' hL'
    rw [hlen] at ih
    generalize (lexText pre).length = p at *
    refine ⟨fun c cs h => slot_first hN hT hI h, ?_⟩
    dsimp only
    have hend : EndsAt f.src (p + x.2.length) x := ⟨p, hpl, rfl⟩
    have hkb : ∀ k ∈ f.consts, k.span.b < p + x.2.length → k.span.b ≤ p := by
      intro k hk h
      have := (hT.consts k hk).opens.bdry p x hpl
      omega
    have hke : ∀ k ∈ f.consts, p < k.span.e → p + x.2.length ≤ k.span.e := by
      intro k hk h
      have := (hT.consts k hk).closes.bdry p x hpl
      omega
    by_cases hr : removed (fileEdits o first f) p = true
    · rw [if_pos hr]
      apply ih
      rw [removed_iff hN] at hr
      rcases hr with ⟨m, hm, sp, hsym, hhas⟩ | ⟨k, hk, hhas⟩
      · -- an operator
        obtain ⟨y, hy, htok, hsl⟩ := hT.symbols m hm sp hsym
        obtain ⟨hh1, hh2⟩ := hhas
        have hpe : sp.b = p ∧ y = x := by
          rcases placed_apart hy hpl with ⟨h1, h2⟩ | h | h
          · exact ⟨h1, h2⟩
          · omega
          · omega
        obtain ⟨hb, rfl⟩ := hpe
        have hstart : Starts f.src p := ⟨y, hpl, htok⟩
        have hnk : ∀ k ∈ f.consts, p ≠ k.span.b := by
          intro k hk h
          have := ((hT.consts k hk).muts m hm).2.2.1 sp hsym
          have := (hT.consts k hk).nonempty
          omega
        have hcons : ∀ k ∈ f.consts, ¬ (k.span.b < p + y.2.length ∧ p + y.2.length < k.span.e) := by
          rintro k hk ⟨h1, h2⟩
          have := ((hT.consts k hk).muts m hm).2.2.1 sp hsym
          have := hkb k hk h1
          omega
        refine ⟨fun k hk h1 h2 => absurd ⟨h1, h2⟩ (hcons k hk), ?_⟩
        by_cases hsl0 : slot (fileEdits o first f) p = []
        · rw [if_pos hsl0]
          -- the operator is at the end of a unary expression
          obtain ⟨id, hid⟩ := mem_mut_edits (o := o) (first := first) hm
          unfold slot at hsl0
          simp only [List.append_eq_nil_iff] at hsl0
          cases m with
          | expr s => cases hsym
          | stmt s => cases hsym
          | bin s =>
            exfalso
            simp only [Mutation.symbol] at hsym
            split at hsym
            · cases hsym
            · rename_i hc
              cases hq : s.opOff with
              | none => simp [hq] at hsym
              | some q =>
                simp only [hq, Option.map_some, Option.some.injEq] at hsym
                subst hsym
                have hmem : Edit.replace q s.op.str.length t!"," ∈ fileEdits o first f := by
                  refine hid _ ?_
                  simp only [Mutation.apply, BinSite.apply]
                  rw [if_neg hc]
                  exact List.mem_append_left _ (replaceSymbol_mem hq)
                have hb' : q = p := hb
                exact flatMap_mem_ne hmem (f := Edit.replaceAt p) (by simp [Edit.replaceAt, hb'])
                  hsl0.2
          | un s =>
            cases hq : s.opOff with
            | none => simp [Mutation.symbol, hq] at hsym
            | some q =>
              simp only [Mutation.symbol, hq, Option.map_some, Option.some.injEq] at hsym
              subst hsym
              have hb' : q = p := hb
              obtain ⟨pr, sf, e1, -, e3, -, -⟩ := s.edits_texts f.lang o (id - first) (fun h => hN h _ hm)
              have hmem : Edit.before s.span.b pr ∈ fileEdits o first f := by
                refine hid _ ?_
                show _ ∈ s.edits f.lang o (id - first)
                rw [e1]; simp
              rcases hT.unary s hm q hq with h | ⟨h1, h2, h3⟩
              · exfalso
                exact flatMap_mem_ne (List.mem_reverse.2 hmem) (f := Edit.beforeAt p)
                  (by simp [Edit.beforeAt, ← h, hb', e3]) hsl0.1.1
              · have hse : s.span.e = p + y.2.length := by
                  have : q + s.op.str.length = q + y.2.length := hsl
                  omega
                rw [hse] at h2 h3
                refine .inr (.inr (.inr (.inr ⟨s, hm, hse.symm, h2, h3, ?_⟩)))
                intro x' hx'
                rcases hI.kinds with h0 | ⟨s', hs', hd⟩ | ⟨z, hz, hσ⟩ | ⟨k, hk, -, -, hσ⟩ |
                  ⟨u, hu, hp, hno, hl, hcl⟩
                · rw [h0] at hx'; cases hx'
                · rw [hs'] at hx'; cases hx'
                  exact done_closed hd
                · rw [hσ] at hx'; cases hx'; exact closed_before hstart hz
                · rw [hσ] at hx'; cases hx'; rfl
                · exact hcl x' hx'
        · rw [if_neg hsl0]
          rcases slot_shut (first := first) hN hT hnk with h | h
          · exact absurd h hsl0
          · obtain ⟨s, h1, h2⟩ := h.done
            exact .inr (.inl ⟨s, h1, h2⟩)
      · -- a constant
        obtain ⟨hh1, hh2⟩ := hhas
        have hs1 : (if slot (fileEdits o first f) p = [] then σ else endSt (slot (fileEdits o first f) p)) =
            some (.number false) := by
          by_cases hpb : p = k.span.b
          · subst hpb
            obtain ⟨h1, h2⟩ := slot_const (o := o) (first := first) hN hT hk
            rw [if_neg h1]; exact h2
          · have hnil : slot (fileEdits o first f) p = [] := by
              cases hsl : slot (fileEdits o first f) p with
              | nil => rfl
              | cons c cs =>
                exfalso
                have hK := hT.consts k hk
                rcases slot_cases hsl with ⟨d, hd⟩ | ⟨-, d, hd⟩ | ⟨-, -, d, hd⟩
                · rcases (befores_shut (first := first) hN p).2 (by rw [hd]; simp) with ⟨m, hm, ho⟩ | hp
                  · have := (hK.muts m hm).1 p ho
                    omega
                  · have := hK.prelude
                    omega
                · obtain ⟨hx, -⟩ := (afters_facts (first := first) hN hT p).2 (by rw [hd]; simp)
                  rcases hx with ⟨m, hm, ho⟩ | ⟨s, hs, hp⟩
                  · have := (hK.muts m hm).2.1 p ho
                    omega
                  · have := (hK.muts _ hs).2.2.2 s rfl
                    omega
                · rcases replacements_first hN hd with ⟨-, s, hs, hsym⟩ | ⟨-, k', hk', hp⟩
                  · have := (hK.muts _ hs).2.2.1 _ hsym
                    have := s.op.str_pos
                    simp only at *
                    omega
                  · rcases hK.others k' hk' with rfl | h | h
                    · omega
                    · have := (hT.consts k' hk').nonempty
                      omega
                    · omega
            rw [if_pos hnil]
            exact hI.consts k hk (by omega) hh2
        rw [hs1]
        refine ⟨fun _ _ _ _ => rfl, .inr (.inr (.inr (.inl ⟨k, hk, by omega, hke k hk hh2, rfl⟩)))⟩
    · rw [if_neg hr]
      have hnr : ∀ k ∈ f.consts, ¬ (k.span.b ≤ p ∧ p < k.span.e) := fun k hk h =>
        hr ((removed_iff hN p).2 (.inr ⟨k, hk, h⟩))
      constructor
      · intro c cs hc
        have hnk : ∀ k ∈ f.consts, p ≠ k.span.b := by
          intro k hk h
          have := (hT.consts k hk).nonempty
          exact hnr k hk (by omega)
        by_cases hsl0 : slot (fileEdits o first f) p = []
        · rw [if_pos hsl0]
          rcases hI.kinds with h0 | ⟨s', hs', hd⟩ | ⟨z, hz, hσ⟩ | ⟨k, hk, hb, he, hσ⟩ |
            ⟨u, hu, hp, hno, hl, hcl⟩
          · intro s hs; rw [h0] at hs; cases hs
          · intro s hs; rw [hs'] at hs; cases hs; exact hd c
          · intro s hs; rw [hσ] at hs; cases hs; exact places_next hz hpl c cs hc
          · intro s hs; rw [hσ] at hs; cases hs
            have hpe : p = k.span.e := by
              have := hnr k hk
              omega
            obtain ⟨h1, h2⟩ := (hT.consts k hk).after x (hpe ▸ hpl) c cs hc
            simp [Lexing.more, h1, h2]
          · exfalso
            obtain ⟨id, hid⟩ := mem_mut_edits (o := o) (first := first) hu
            obtain ⟨pre', suf', e1, -, -, -, e5⟩ := u.edits_texts f.lang o (id - first) (fun h => hN h _ hu)
            have hmem : Edit.after u.span.e suf' ∈ fileEdits o first f := by
              refine hid _ ?_
              show _ ∈ u.edits f.lang o (id - first)
              rw [e1]; simp
            unfold slot at hsl0
            simp only [List.append_eq_nil_iff] at hsl0
            exact flatMap_mem_ne hmem (f := Edit.afterAt p) (by simp [Edit.afterAt, hp, e5]) hsl0.1.2
        · rw [if_neg hsl0]
          rcases slot_shut (first := first) hN hT hnk with h | h
          · exact absurd h hsl0
          · obtain ⟨s, h1, h2⟩ := h.done
            intro s' hs'
            rw [h1] at hs'; cases hs'; exact h2 c
      · apply ih
        refine ⟨fun k hk h1 h2 => ?_, .inr (.inr (.inl ⟨x, hend, rfl⟩))⟩
        exfalso
        have := hkb k hk h1
        exact hnr k hk ⟨this, by omega⟩

/-- The lexemes of a rewritten file. -/
theorem fileEdits_items (hN : NodesOk o f) (hT : Tokenised f) :
    lexemes (rewrite f.src (fileEdits o first f)) =
      LItem.new (itemsOf (fileEdits o first f) 0 (lexemes f.src)) := by
  have hG := fileEdits_glued (o := o) (first := first) hN hT (lexemes f.src) [] none rfl
    ⟨fun k hk h1 h2 => absurd h1 (by simp), .inl rfl⟩
  obtain ⟨items, h0, -, h2, -⟩ := rewrite_lexemes (fileEdits o first f) (lexemes f.src) 0 []
    (lexemes_single f.src) (fileEdits_uniform hN hT) hG
  rw [lexemes_text, h0] at h2
  simpa [rewrite, lexemes] using h2

/-- The lexemes of a rewritten file, compared with those of the original. -/
theorem fileEdits_lexemes (hN : NodesOk o f) (hT : Tokenised f) :
    ∃ items, LItem.old items = lexemes f.src ∧
      lexemes (rewrite f.src (fileEdits o first f)) = LItem.new items ∧
      ∀ p x, (p, x) ∈ LItem.gone 0 items ↔ (p, x) ∈ places f.src ∧ (InSymbol f p ∨ InConst f p) := by
  have hG := fileEdits_glued (o := o) (first := first) hN hT (lexemes f.src) [] none rfl
    ⟨fun k hk h1 h2 => absurd h1 (by simp), .inl rfl⟩
  obtain ⟨items, -, h1, h2, h3⟩ := rewrite_lexemes (fileEdits o first f) (lexemes f.src) 0 []
    (lexemes_single f.src) (fileEdits_uniform hN hT) hG
  refine ⟨items, h1, ?_, ?_⟩
  · rw [lexemes_text] at h2
    simpa [rewrite, lexemes] using h2
  · intro p x
    rw [h3, removed_iff hN]
    rfl

end Dredd
