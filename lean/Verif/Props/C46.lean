/-
C46: the whole operator symbol is replaced.
-/
import Verif.Props.C31

namespace Dredd

/-- The offsets at which the texts that a mutation deals with begin and end. -/
def Mutation.bounds : Mutation → List Nat
  | .bin s => [s.lhsSpan.b, s.lhsSpan.e, s.rhsSpan.b, s.rhsSpan.e, s.span.b, s.span.e]
  | .un s => [s.span.b, s.span.e]
  | .expr s => [s.span.b, s.span.e]
  | .stmt s => [s.span.b, s.extEnd]

/-- What a replaced operator symbol is replaced by. -/
def Mutation.newSymbol : Mutation → Text
  | .bin _ => t!","
  | _ => []

/-- The operator symbol of mutation `m` is a token: nothing else begins or ends inside
of it, and no other replaced symbol and no constant overlaps it.  `others` are the
other mutations. -/
structure TokenOf (f : SourceFile) (m : Mutation) (others : List Mutation) (b : Nat) (t : Text) :
    Prop where
  sym : m.symbolText f.lang = some (b, t)
  bounds : ∀ m' ∈ m :: others, ∀ q ∈ m'.bounds, q ≤ b ∨ b + t.length ≤ q
  syms : ∀ m' ∈ others, ∀ b' t', m'.symbolText f.lang = some (b', t') →
    b' + t'.length ≤ b ∨ b + t.length ≤ b'
  consts : ∀ k ∈ f.consts, k.span.b < k.span.e ∧ (k.span.e ≤ b ∨ b + t.length ≤ k.span.b)
  prelude : f.preludeOff.getD 0 ≤ b ∨ b + t.length ≤ f.preludeOff.getD 0

theorem Mutation.symbolText_ne {l : Lang} {m : Mutation} {b : Nat} {t : Text}
    (h : m.symbolText l = some (b, t)) : 0 < t.length := by
  have hb : ∀ op : BOp, 0 < op.str.length := by intro op; cases op <;> decide
  have hu : ∀ op : UOp, 0 < op.str.length := by intro op; cases op <;> decide
  cases m with
  | bin s =>
    simp only [Mutation.symbolText] at h
    split at h
    · cases h
    · simp only [Option.map_eq_some_iff, Prod.mk.injEq] at h
      obtain ⟨q, -, -, h⟩ := h
      rw [← h]; exact hb _
  | un s =>
    simp only [Mutation.symbolText, Option.map_eq_some_iff, Prod.mk.injEq] at h
    obtain ⟨q, -, -, h⟩ := h
    rw [← h]; exact hu _
  | expr s => cases h
  | stmt s => cases h

/-- All edits of a mutation are insertions at its bounds, or the replacement of its
symbol. -/
theorem Mutation.edits_form (l : Lang) (o : Options) (first id : Nat) (m : Mutation) (e : Edit)
    (he : e ∈ (m.apply l o first id).edits) :
    (∃ q ∈ m.bounds, ∃ t, e = .before q t ∨ e = .after q t) ∨
      ∃ b t, m.symbolText l = some (b, t) ∧ e = .replace b t.length m.newSymbol := by
  cases m with
  | bin s =>
    simp only [Mutation.apply, BinSite.apply] at he
    simp only [Mutation.symbolText]
    by_cases hc : (!l.cpp && s.op.isLogical) = true
    · rw [if_pos hc] at he
      left
      unfold BinSite.applyCLogical wrapCall at he
      dsimp only at he
      simp only [Mutation.bounds]
      simp at he
      rcases he with ⟨-, rfl | rfl | rfl | rfl⟩ | rfl | rfl <;> simp
    · rw [if_neg hc] at he
      rw [if_neg hc]
      simp only [BinSite.replaceOperator, List.mem_append, List.mem_cons, List.not_mem_nil,
        or_false] at he
      rcases he with he | rfl | rfl | rfl | rfl
      · cases hq : s.opOff with
        | none => rw [hq] at he; cases he
        | some q =>
          rw [hq] at he
          obtain rfl := List.mem_singleton.1 he
          exact .inr ⟨_, _, rfl, rfl⟩
      all_goals (left; simp [Mutation.bounds])
  | un s =>
    simp only [Mutation.apply, UnSite.apply, UnSite.edits, List.mem_append, List.mem_cons,
      List.not_mem_nil, or_false] at he
    simp only [Mutation.symbolText]
    rcases he with he | rfl | rfl
    · cases hq : s.opOff with
      | none => rw [hq] at he; cases he
      | some q =>
        rw [hq] at he
        obtain rfl := List.mem_singleton.1 he
        exact .inr ⟨_, _, rfl, rfl⟩
    all_goals (left; simp [Mutation.bounds])
  | expr s =>
    simp only [Mutation.apply, ExprSite.apply, ExprSite.edits, List.mem_cons, List.not_mem_nil,
      or_false] at he
    rcases he with rfl | rfl <;> (left; simp [Mutation.bounds])
  | stmt s =>
    simp only [Mutation.apply, StmtSite.apply, StmtSite.edits] at he
    left
    split at he
    · simp at he
      subst he
      simp [Mutation.bounds]
    · simp at he
      rcases he with rfl | rfl <;> simp [Mutation.bounds]

/-- All edits of a file: insertions at bounds or at the prelude location, and
replacements of symbols and of constants. -/
theorem fileEdits_form (o : Options) (first : Nat) (f : SourceFile) (e : Edit)
    (he : e ∈ fileEdits o first f) :
    (∃ m ∈ f.tree.post, ∃ q ∈ m.bounds, ∃ t, e = .before q t ∨ e = .after q t) ∨
    (∃ m ∈ f.tree.post, ∃ b t, m.symbolText f.lang = some (b, t) ∧
      e = .replace b t.length m.newSymbol) ∨
    (∃ k ∈ f.consts, e = .replace k.span.b (k.span.e - k.span.b) (natDec k.value)) ∨
    ∃ t, e = .before (f.preludeOff.getD 0) t := by
  simp only [fileEdits, finishEdits, List.mem_append, List.mem_singleton] at he
  rcases he with ((he | he) | he) | he
  · rw [editsFrom_numbered, List.mem_flatMap] at he
    obtain ⟨x, hx, he⟩ := he
    have hm : x.2 ∈ f.tree.post := by
      rw [← numbered_snd f.lang o.optimise first f.tree.post]
      exact List.mem_map_of_mem hx
    rcases Mutation.edits_form _ _ _ _ _ _ he with ⟨q, hq, t, h⟩ | ⟨b, t, h1, h2⟩
    · exact .inl ⟨_, hm, q, hq, t, h⟩
    · exact .inr (.inl ⟨_, hm, b, t, h1, h2⟩)
  · obtain ⟨k, hk, rfl⟩ := List.mem_map.1 he
    exact .inr (.inr (.inl ⟨k, hk, rfl⟩))
  · obtain ⟨d, -, rfl⟩ := List.mem_map.1 he
    exact .inr (.inr (.inr ⟨_, rfl⟩))
  · exact .inr (.inr (.inr ⟨_, he⟩))

theorem slot_nil {es : List Edit} {p : Nat}
    (h : ∀ e ∈ es, e.off ≠ p) : slot es p = [] := by
  have key : ∀ e ∈ es, e.beforeAt p = [] ∧ e.afterAt p = [] ∧ e.replaceAt p = [] := by
    intro e he
    have := h e he
    cases e <;> simp_all [Edit.off, Edit.beforeAt, Edit.afterAt, Edit.replaceAt]
  unfold slot befores afters replacements
  simp only [List.append_eq_nil_iff, List.flatMap_eq_nil_iff, List.mem_reverse]
  exact ⟨⟨fun e he => (key e he).1, fun e he => (key e he).2.1⟩, fun e he => (key e he).2.2⟩

theorem replacements_nil {es : List Edit} {p : Nat}
    (h : ∀ n t, Edit.replace p n t ∉ es) : replacements es p = [] := by
  unfold replacements
  rw [List.flatMap_eq_nil_iff]
  intro e he
  cases e with
  | replace q n t =>
    simp only [Edit.replaceAt]
    split
    next hq => subst hq; exact absurd he (h n t)
    next => rfl
  | _ => rfl

theorem numbered_append (l : Lang) (opt : Bool) (id : Nat) (as bs : List Mutation) :
    numbered l opt id (as ++ bs)
      = numbered l opt id as ++ numbered l opt (id + countAll l opt as) bs := by
  induction as generalizing id with
  | nil => simp [numbered]
  | cons a as ih => simp [numbered, ih, Nat.add_assoc]

/-- What stands in the place of an operator symbol. -/
theorem TokenOf.replaced {o : Options} {first : Nat} {f : SourceFile} {m : Mutation}
    {ms1 ms2 : List Mutation} {b : Nat} {t : Text} (hpost : f.tree.post = ms1 ++ m :: ms2)
    (h : TokenOf f m (ms1 ++ ms2) b t) :
    replacements (fileEdits o first f) b = m.newSymbol := by
  have ht := Mutation.symbolText_ne h.sym
  have others : ∀ (ms : List Mutation), (∀ m' ∈ ms, m' ∈ ms1 ++ ms2) → ∀ id,
      replacements (editsFrom f.lang o first id ms) b = [] := by
    intro ms hms id
    apply replacements_nil
    intro n t' he
    rw [editsFrom_numbered, List.mem_flatMap] at he
    obtain ⟨x, hx, he⟩ := he
    have hm : x.2 ∈ ms := by
      rw [← numbered_snd f.lang o.optimise id ms]
      exact List.mem_map_of_mem hx
    rcases Mutation.edits_form _ _ _ _ _ _ he with ⟨q, hq, t, h | h⟩ | ⟨b', t'', h1, h2⟩
    · cases h
    · cases h
    · have h3 := h.syms _ (hms _ hm) b' t'' h1
      have h4 := Mutation.symbolText_ne h1
      simp only [Edit.replace.injEq] at h2
      omega
  have hself : ∀ id, replacements (m.apply f.lang o first id).edits b = m.newSymbol := by
    intro id
    have hs := h.sym
    cases m with
    | bin s =>
      simp only [Mutation.symbolText] at hs
      split at hs
      · cases hs
      next hc =>
        simp only [Option.map_eq_some_iff, Prod.mk.injEq] at hs
        obtain ⟨q, hq, rfl, -⟩ := hs
        simp only [Mutation.apply, BinSite.apply, if_neg hc]
        simp [replacements, BinSite.replaceOperator, replaceSymbol, hq, Edit.replaceAt,
          Mutation.newSymbol]
    | un s =>
      simp only [Mutation.symbolText, Option.map_eq_some_iff, Prod.mk.injEq] at hs
      obtain ⟨q, hq, rfl, -⟩ := hs
      simp [Mutation.apply, UnSite.apply, replacements, UnSite.edits, replaceSymbol, hq,
        Edit.replaceAt, Mutation.newSymbol]
    | expr s => cases hs
    | stmt s => cases hs
  simp only [fileEdits, finishEdits, replacements_append]
  rw [hpost, editsFrom_append, replacements_append, editsFrom, replacements_append, hself,
    others ms1 (fun m' hm' => List.mem_append_left _ hm'),
    others ms2 (fun m' hm' => List.mem_append_right _ hm')]
  rw [replacements_nil (es := f.consts.map _), replacements_nil (es := List.map _ _),
    replacements_nil (es := [_])]
  · simp
  · simp
  · simp
  · intro n t' he
    obtain ⟨k, hk, hk'⟩ := List.mem_map.1 he
    have := h.consts k hk
    simp only [Edit.replace.injEq] at hk'
    omega

/-- C46 (for operators whose spelling is as long as the usual one): in the place of an
operator symbol, nothing of the symbol is left; for a binary operator there is a comma
instead, possibly behind text that belongs to the operand in front.  `w` is the
symbol as written in the source.  The text before the symbol has become `i1`, the text
behind the symbol `i2`.

The full property is about all spellings; see `C46_false`, `C46_left_over`. -/
theorem C46_partial (o : Options) (req : Bool) (first : Nat) (f : SourceFile) (out : Text)
    (h : (handleTU o req first f).output = some out) (m : Mutation) (ms1 ms2 : List Mutation)
    (hpost : f.tree.post = ms1 ++ m :: ms2) (b : Nat) (t u w v : Text)
    (htok : TokenOf f m (ms1 ++ ms2) b t)
    (hsrc : f.src = u ++ w ++ v) (hu : u.length = b) (hw : w.length = t.length) :
    ∃ (i1 i2 : List Item) (x : Text),
      Item.oldText i1 = u ∧ Item.oldText i2 = v ∧
      out = Item.newText i1 ++ x ++ m.newSymbol ++ Item.newText i2 ∧
      ∀ p c, (p, c) ∈ Item.gone (b + t.length) i2 →
        (∃ m' ∈ ms1 ++ ms2, ∃ sp, m'.symbol f.lang = some sp ∧ sp.has p) ∨
          ∃ k ∈ f.consts, k.span.has p := by
  have hn : fileCount o.optimise f ≠ 0 := by
    intro h0
    rw [handleTU_eq, if_pos h0] at h
    cases h
  rw [handleTU_eq, if_neg hn] at h
  simp only [Option.some.injEq] at h
  have ht := Mutation.symbolText_ne htok.sym
  have hsym : m.symbol f.lang = some ⟨b, b + t.length⟩ := by
    rw [Mutation.symbol_eq, htok.sym]; rfl
  have hmem : m ∈ f.tree.post := by rw [hpost]; simp
  have hrem : ∀ p, b ≤ p → p < b + t.length → removed (fileEdits o first f) p = true := by
    intro p h1 h2
    exact (removed_fileEdits o first f p).2 (.inl ⟨m, hmem, _, hsym, h1, h2⟩)
  have hpostmem : ∀ m', m' ∈ f.tree.post → m' ∈ m :: (ms1 ++ ms2) := by
    intro m' hm'
    rw [hpost] at hm'
    simp only [List.mem_append, List.mem_cons] at hm' ⊢
    rcases hm' with h | h | h
    · exact .inr (.inl h)
    · exact .inl h
    · exact .inr (.inr h)
  have hslot : ∀ p, b < p → p < b + t.length → slot (fileEdits o first f) p = [] := by
    intro p h1 h2
    apply slot_nil
    intro e he hp
    rcases fileEdits_form o first f e he with
      ⟨m', hm', q, hq, t', rfl | rfl⟩ | ⟨m', hm', b', t', hs, rfl⟩ | ⟨k, hk, rfl⟩ | ⟨t', rfl⟩
    · have := htok.bounds m' (hpostmem m' hm') q hq
      simp only [Edit.off] at hp
      omega
    · have := htok.bounds m' (hpostmem m' hm') q hq
      simp only [Edit.off] at hp
      omega
    · simp only [Edit.off] at hp
      rcases List.mem_cons.1 (hpostmem m' hm') with rfl | hm'
      · rw [htok.sym] at hs
        simp only [Option.some.injEq, Prod.mk.injEq] at hs
        omega
      · have := htok.syms m' hm' b' t' hs
        have := Mutation.symbolText_ne hs
        omega
    · have := htok.consts k hk
      simp only [Edit.off] at hp
      omega
    · have := htok.prelude
      simp only [Edit.off] at hp
      omega
  have hwne : w ≠ [] := by
    intro h0
    rw [h0] at hw
    simp at hw
    omega
  obtain ⟨c, cs, rfl⟩ := List.exists_cons_of_ne_nil hwne
  have hmid : rewriteFront (fileEdits o first f) b (c :: cs)
      = befores (fileEdits o first f) b ++ afters (fileEdits o first f) b ++ m.newSymbol := by
    simp only [rewriteFront]
    rw [rewriteFront_removed _ (b + 1) cs
      (fun p h1 h2 => hrem p (by omega) (by simp at hw; omega))
      (fun p h1 h2 => hslot p (by omega) (by simp at hw; omega)), hrem b (Nat.le_refl _) (by omega)]
    simp only [slot, htok.replaced hpost]
    simp
  refine ⟨compare (fileEdits o first f) 0 u,
    compare (fileEdits o first f) (b + t.length) v
      ++ [.ins (slot (fileEdits o first f) (b + t.length + v.length))],
    befores (fileEdits o first f) b ++ afters (fileEdits o first f) b, compare_old _ _ _, ?_, ?_, ?_⟩
  · simp [compare_old, Item.oldText]
  · rw [← h, rewrite, hsrc, List.append_assoc, rewriteFrom_split, rewriteFrom_split,
      Nat.zero_add, hu, hmid, hw, rewriteFrom_end, Item.newText_append, compare_new, compare_new]
    simp [Item.newText]
  · intro p c' hp
    rw [Item.gone_append] at hp
    have : Item.gone (b + t.length + (Item.oldText (compare (fileEdits o first f)
        (b + t.length) v)).length) [Item.ins (slot (fileEdits o first f)
          (b + t.length + v.length))] = [] := rfl
    rw [this, List.append_nil, compare_gone, removed_fileEdits] at hp
    obtain ⟨hp1, -, ⟨m', hm', sp, hsp, hin⟩ | hk⟩ := hp
    · rcases List.mem_cons.1 (hpostmem m' hm') with rfl | hm'
      · rw [hsym] at hsp
        simp only [Option.some.injEq] at hsp
        subst hsp
        have : p < b + t.length := hin.2
        omega
      · exact .inl ⟨m', hm', sp, hsp, hin⟩
    · exact .inr hk

/-! ### Other spellings -/

/-- The other spellings of binary operators in C++ (`[lex.digraph]`). -/
def BOp.otherSpellings : BOp → List Text
  | .land => [t!"and"] | .lor => [t!"or"]
  | .and => [t!"bitand"] | .or => [t!"bitor"] | .xor => [t!"xor"]
  | .andAssign => [t!"and_eq"] | .orAssign => [t!"or_eq"] | .xorAssign => [t!"xor_eq"]
  | .ne => [t!"not_eq"]
  | _ => []

/-- The other spellings of unary operators. -/
def UOp.otherSpellings : UOp → List Text
  | .lnot => [t!"not"] | .not => [t!"compl"] | .addrOf => [t!"bitand"]
  | _ => []

/-- The spellings of the operator of a mutation. -/
def Mutation.spellings : Mutation → List Text
  | .bin s => s.op.str :: s.op.otherSpellings
  | .un s => s.op.str :: s.op.otherSpellings
  | _ => []

/-- All spellings are at least as long as the usual one; those that are just as long
are the usual one and `or`. -/
theorem spellings_length {l : Lang} {m : Mutation} {b : Nat} {t sp : Text}
    (h : m.symbolText l = some (b, t)) (hsp : sp ∈ m.spellings) :
    t.length ≤ sp.length ∧ (sp.length = t.length ↔ sp = t ∨ sp = t!"or") := by
  have hb : ∀ op : BOp, ∀ sp ∈ op.str :: op.otherSpellings,
      op.str.length ≤ sp.length ∧ (sp.length = op.str.length ↔ sp = op.str ∨ sp = t!"or") := by
    intro op
    cases op <;> decide
  have hu : ∀ op : UOp, ∀ sp ∈ op.str :: op.otherSpellings,
      op.str.length ≤ sp.length ∧ (sp.length = op.str.length ↔ sp = op.str ∨ sp = t!"or") := by
    intro op
    cases op <;> decide
  cases m with
  | bin s =>
    simp only [Mutation.symbolText] at h
    split at h
    · cases h
    · simp only [Option.map_eq_some_iff, Prod.mk.injEq] at h
      obtain ⟨q, -, -, h⟩ := h
      rw [← h]; exact hb _ sp hsp
  | un s =>
    simp only [Mutation.symbolText, Option.map_eq_some_iff, Prod.mk.injEq] at h
    obtain ⟨q, -, -, h⟩ := h
    rw [← h]; exact hu _ sp hsp
  | expr s => cases h
  | stmt s => cases h

theorem Item.split (i : List Item) (a b : Text) (h : Item.oldText i = a ++ b) :
    ∃ i1 i2, i = i1 ++ i2 ∧ Item.oldText i1 = a ∧ Item.oldText i2 = b := by
  induction i generalizing a with
  | nil =>
    have := List.append_eq_nil_iff.1 h.symm
    exact ⟨[], [], rfl, this.1.symm, this.2.symm⟩
  | cons x r ih =>
    cases a with
    | nil => exact ⟨[], x :: r, rfl, rfl, h⟩
    | cons c cs =>
      cases x with
      | keep d =>
        simp only [Item.oldText, List.cons_append, List.cons.injEq] at h
        obtain ⟨i1, i2, rfl, h1, h2⟩ := ih cs h.2
        exact ⟨.keep d :: i1, i2, rfl, by simp [Item.oldText, h1, h.1], h2⟩
      | del d =>
        simp only [Item.oldText, List.cons_append, List.cons.injEq] at h
        obtain ⟨i1, i2, rfl, h1, h2⟩ := ih cs h.2
        exact ⟨.del d :: i1, i2, rfl, by simp [Item.oldText, h1, h.1], h2⟩
      | ins t =>
        obtain ⟨i1, i2, rfl, h1, h2⟩ := ih (c :: cs) h
        exact ⟨.ins t :: i1, i2, rfl, h1, h2⟩

theorem Item.gone_range (o : Nat) (i : List Item) (p : Nat) (c : Char)
    (h : (p, c) ∈ Item.gone o i) : o ≤ p ∧ p < o + (Item.oldText i).length := by
  induction i generalizing o with
  | nil => cases h
  | cons x r ih =>
    cases x with
    | keep d =>
      have := ih (o + 1) h
      simp only [Item.oldText, List.length_cons]
      omega
    | del d =>
      rcases List.mem_cons.1 h with h | h
      · simp only [Prod.mk.injEq] at h
        simp only [Item.oldText, List.length_cons]
        omega
      · have := ih (o + 1) h
        simp only [Item.oldText, List.length_cons]
        omega
    | ins t => exact ih o h

/-- Where C46 fails: if the operator is written with a spelling that is longer than the
usual one, the rest of that spelling stays in the file, behind the comma. -/
theorem C46_left_over (o : Options) (req : Bool) (first : Nat) (f : SourceFile) (out : Text)
    (h : (handleTU o req first f).output = some out) (m : Mutation) (ms1 ms2 : List Mutation)
    (hpost : f.tree.post = ms1 ++ m :: ms2) (b : Nat) (t u sp v : Text)
    (htok : TokenOf f m (ms1 ++ ms2) b t)
    (hsrc : f.src = u ++ sp ++ v) (hu : u.length = b) (hsp : sp ∈ m.spellings) (hne : sp ≠ t)
    (hor : sp ≠ t!"or")
    (hsyms : ∀ m' ∈ ms1 ++ ms2, ∀ s, m'.symbol f.lang = some s → ∀ p, s.has p →
      ¬ (b ≤ p ∧ p < b + sp.length))
    (hconsts : ∀ k ∈ f.consts, ∀ p, k.span.has p → ¬ (b ≤ p ∧ p < b + sp.length)) :
    ∃ (i1 i2 i3 : List Item) (x rest : Text),
      Item.oldText i1 = u ∧ Item.oldText i2 = rest ∧ Item.oldText i3 = v ∧
      out = Item.newText i1 ++ x ++ m.newSymbol ++ Item.newText i2 ++ Item.newText i3 ∧
      sp = sp.take t.length ++ rest ∧ rest ≠ [] ∧ Item.gone 0 i2 = [] := by
  have ⟨hlen, heq⟩ := spellings_length htok.sym hsp
  have hlt : t.length < sp.length := by
    rcases Nat.lt_or_eq_of_le hlen with h | h
    · exact h
    · rcases heq.1 h.symm with h | h
      · exact absurd h hne
      · exact absurd h hor
  obtain ⟨i1, i2, x, h1, h2, h3, h4⟩ := C46_partial o req first f out h m ms1 ms2 hpost b t u
    (sp.take t.length) (sp.drop t.length ++ v) htok
    (by rw [hsrc, List.append_assoc u, List.append_assoc u, ← List.append_assoc (sp.take _),
      List.take_append_drop]) hu (by simp; omega)
  obtain ⟨j1, j2, rfl, e1, e2⟩ := Item.split i2 _ _ h2
  have hg : Item.gone (b + t.length) j1 = [] := by
    rw [List.eq_nil_iff_forall_not_mem]
    rintro ⟨p, c⟩ hp
    have hr := Item.gone_range _ _ _ _ hp
    rw [e1, List.length_drop] at hr
    have hp' : (p, c) ∈ Item.gone (b + t.length) (j1 ++ j2) := by
      rw [Item.gone_append]
      exact List.mem_append_left _ hp
    rcases h4 p c hp' with ⟨m', hm', s, hs, hin⟩ | ⟨k, hk, hin⟩
    · exact hsyms m' hm' s hs p hin (by omega)
    · exact hconsts k hk p hin (by omega)
  have shift : ∀ (i : List Item) (a b : Nat), Item.gone a i = [] → Item.gone b i = [] := by
    intro i
    induction i with
    | nil => intros; rfl
    | cons x r ih =>
      intro a b hg
      cases x with
      | keep d => exact ih _ _ hg
      | del d => cases hg
      | ins t => exact ih _ _ hg
  refine ⟨i1, j1, j2, x, sp.drop t.length, h1, e1, e2, ?_, (List.take_append_drop _ _).symm, ?_,
    shift _ _ _ hg⟩
  · rw [h3, Item.newText_append]
    simp
  · intro h0
    have := congrArg List.length h0
    simp at this
    omega

namespace Sample

/-- `x=a and b;`. -/
def andFile : SourceFile :=
  { name := t!"a.cc", lang := cpp, src := t!"x=a and b;", hasErrors := false
    tree := .node [.bin ⟨.land, { intVal with ty := .bool }, { intVal with ty := .bool }, .bool,
      some 4, ⟨2, 9⟩, ⟨2, 3⟩, ⟨8, 9⟩, info, info, info, []⟩] []
    consts := [], preludeOff := none }

end Sample

/-- C46 fails: `a and b` becomes a call with the arguments `a` and `d b`. -/
theorem C46_false :
    ∃ (o : Options) (f : SourceFile) (out : Text),
      f.src = t!"x=a and b;" ∧ (handleTU o true 0 f).output = some out ∧
      ∃ x, out = x ++ t!"(a ,d [&]() -> bool { return static_cast<bool>(b); }, 0);" := by
  refine ⟨Sample.opts, Sample.andFile, _, rfl, rfl, ?_⟩
  have h : t!"(a ,d [&]() -> bool { return static_cast<bool>(b); }, 0);" <:+
      rewrite Sample.andFile.src (fileEdits Sample.opts 0 Sample.andFile) := by
    rw [← List.isSuffixOf_iff_suffix]
    decide +kernel
  obtain ⟨x, hx⟩ := h
  exact ⟨x, hx.symm⟩

/-- An operator that comes from the expansion of a macro is not taken out: if no operator
of the file is written where it is used, and no constants are rewritten, then nothing
of the original is missing from the output. -/
theorem C46_macro (o : Options) (req : Bool) (first : Nat) (f : SourceFile) (out : Text)
    (h : (handleTU o req first f).output = some out)
    (hb : ∀ s, .bin s ∈ f.tree.post → s.opOff = none)
    (hu : ∀ s, .un s ∈ f.tree.post → s.opOff = none) (hk : f.consts = []) :
    ∃ items : List Item, Item.oldText items = f.src ∧ Item.newText items = out ∧
      Item.gone 0 items = [] := by
  obtain ⟨items, h1, h2, h3⟩ := C31_partial o req first f out h
  refine ⟨items, h1, h2, List.eq_nil_iff_forall_not_mem.2 ?_⟩
  rintro ⟨p, c⟩ hp
  rcases ((h3 p c).1 hp).2 with ⟨m, hm, sp, hs, -⟩ | ⟨k, hk', -⟩
  · cases m with
    | bin s => simp only [Mutation.symbol, hb s hm, Option.map_none, ite_self] at hs; cases hs
    | un s => simp only [Mutation.symbol, hu s hm, Option.map_none] at hs; cases hs
    | expr s => cases hs
    | stmt s => cases hs
  · rw [hk] at hk'; cases hk'

namespace Sample

/-- `x = MINUS a;`, where the macro `MINUS` stands for `-`. -/
def macroFile : SourceFile :=
  { name := t!"a.cc", lang := cpp, src := t!"x=MINUS a;", hasErrors := false
    tree := .node [.un ⟨.minus, intVal, intVal, none, ⟨2, 9⟩, info, info, []⟩] []
    consts := [], preludeOff := none }

end Sample

/-- C46 fails for operators that come from macros: the minus of `MINUS a` is still there
in the argument of the function that stands for the minus. -/
theorem C46_false_macro :
    ∃ (o : Options) (f : SourceFile) (out : Text),
      f.src = t!"x=MINUS a;" ∧ (handleTU o true 0 f).output = some out ∧
      ∃ x, out = x ++ t!"__dredd_replace_unary_operator_Minus_int(MINUS a, 0);" := by
  refine ⟨Sample.opts, Sample.macroFile, _, rfl, rfl, ?_⟩
  have h : t!"__dredd_replace_unary_operator_Minus_int(MINUS a, 0);" <:+
      rewrite Sample.macroFile.src (fileEdits Sample.opts 0 Sample.macroFile) := by
    rw [← List.isSuffixOf_iff_suffix]
    decide +kernel
  obtain ⟨x, hx⟩ := h
  exact ⟨x, hx.symm⟩

/-- The hypotheses of `C46_macro` hold for `x = MINUS a;`. -/
example :
    (handleTU Sample.opts true 0 Sample.macroFile).output.isSome ∧
    (∀ s, .bin s ∈ Sample.macroFile.tree.post → s.opOff = none) ∧
    (∀ s, .un s ∈ Sample.macroFile.tree.post → s.opOff = none) ∧ Sample.macroFile.consts = [] :=
  ⟨by decide, fun s hs => by simp [Sample.macroFile, MTree.post, MTree.postL] at hs,
    fun s hs => by simp [Sample.macroFile, MTree.post, MTree.postL] at hs; rw [hs], rfl⟩

namespace Sample
def plus : Mutation := .bin (bin .add intVal intVal)
def others : List Mutation := [.expr (expr intVal), .expr (expr intVal)]
def others2 : List Mutation := [.expr (expr intVal), .stmt stmt]
end Sample

/-- The hypotheses of `C46_partial` hold for `a + b`. -/
example :
    (handleTU Sample.opts true 0 Sample.plusFile).output.isSome ∧
    Sample.plusFile.tree.post = Sample.others ++ Sample.plus :: Sample.others2 ∧
    TokenOf Sample.plusFile Sample.plus (Sample.others ++ Sample.others2) 10 t!"+" ∧
    Sample.plusFile.src = t!"int f(){a " ++ t!"+" ++ t!" b;}" := by
  refine ⟨by decide, by decide, ⟨by decide, by decide, ?_, by decide, by decide⟩, by decide⟩
  intro m' hm' b' t' h
  have : ∀ m' ∈ Sample.others ++ Sample.others2, m'.symbolText Sample.plusFile.lang = none := by
    decide
  rw [this m' hm'] at h
  cases h

/-- The hypotheses of `C46_left_over` hold for `a and b`. -/
example :
    ∃ m, (handleTU Sample.opts true 0 Sample.andFile).output.isSome ∧
    Sample.andFile.tree.post = [] ++ m :: [] ∧ TokenOf Sample.andFile m ([] ++ []) 4 t!"&&" ∧
    Sample.andFile.src = t!"x=a " ++ t!"and" ++ t!" b;" ∧ t!"and" ∈ m.spellings := by
  refine ⟨.bin ⟨.land, { Sample.intVal with ty := .bool }, { Sample.intVal with ty := .bool }, .bool,
    some 4, ⟨2, 9⟩, ⟨2, 3⟩, ⟨8, 9⟩, Sample.info, Sample.info, Sample.info, []⟩, by decide, by decide,
    ⟨by decide, by decide, ?_, by decide, by decide⟩, by decide, by decide⟩
  intro m' hm'
  cases hm'

end Dredd
