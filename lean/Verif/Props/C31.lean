/-
C31: instrumentation only adds text, apart from operator symbols and the constants
that are rewritten.
-/
import Verif.Proofs.Align
import Verif.Spec.Samples

namespace Dredd

/-- C31: original and mutated file can be compared such that text is only inserted,
apart from the symbols of the operators that are replaced and the constants that are
rewritten; and all of those are gone.

The full property does not mention the constants; `C31_false` shows that it does not
hold for them. -/
theorem C31_partial (o : Options) (req : Bool) (first : Nat) (f : SourceFile) (out : Text)
    (h : (handleTU o req first f).output = some out) :
    ∃ items : List Item, Item.oldText items = f.src ∧ Item.newText items = out ∧
      ∀ p c, (p, c) ∈ Item.gone 0 items ↔ f.src[p]? = some c ∧
        ((∃ m ∈ f.tree.post, ∃ sp, m.symbol f.lang = some sp ∧ sp.has p) ∨
          ∃ k ∈ f.consts, k.span.has p) := by
  have hn : fileCount o.optimise f ≠ 0 := by
    intro h0
    rw [handleTU_eq, if_pos h0] at h
    cases h
  rw [handleTU_eq, if_neg hn] at h
  simp only [Option.some.injEq] at h
  refine ⟨compare (fileEdits o first f) 0 f.src ++
    [.ins (slot (fileEdits o first f) f.src.length)], ?_, ?_, fun p c => ?_⟩
  · simp [compare_old, Item.oldText]
  · rw [← h, Item.newText_append, compare_new, rewrite, rewriteFrom_end]
    simp [Item.newText]
  · have hnil : ∀ k t, Item.gone k [Item.ins t] = [] := fun _ _ => rfl
    rw [Item.gone_append, hnil, List.append_nil, compare_gone, removed_fileEdits]
    simp

/-- The symbol that is replaced, and where it is. -/
def Mutation.symbolText (l : Lang) : Mutation → Option (Nat × Text)
  | .bin s => if !l.cpp && s.op.isLogical then none else s.opOff.map (·, s.op.str)
  | .un s => s.opOff.map (·, s.op.str)
  | .expr _ => none
  | .stmt _ => none

theorem Mutation.symbol_eq (l : Lang) (m : Mutation) :
    m.symbol l = (m.symbolText l).map fun (b, t) => ⟨b, b + t.length⟩ := by
  cases m with
  | bin s =>
    simp only [Mutation.symbol, Mutation.symbolText]
    split
    · rfl
    · cases s.opOff <;> rfl
  | un s => simp only [Mutation.symbol, Mutation.symbolText]; cases s.opOff <;> rfl
  | _ => rfl

/-- C31, for files in which no constants are rewritten and operators are spelled
the usual way: putting back the symbols of the replaced operators and leaving out the
inserted text gives the original. -/
theorem C31_operators (o : Options) (req : Bool) (first : Nat) (f : SourceFile) (out : Text)
    (h : (handleTU o req first f).output = some out) (hk : f.consts = [])
    (hsp : ∀ m ∈ f.tree.post, ∀ b t, m.symbolText f.lang = some (b, t) → t <+: f.src.drop b) :
    ∃ items : List Item, Item.oldText items = f.src ∧ Item.newText items = out ∧
      (∀ p c, (p, c) ∈ Item.gone 0 items →
        ∃ m ∈ f.tree.post, ∃ b t, m.symbolText f.lang = some (b, t) ∧ b ≤ p ∧
          t[p - b]? = some c) ∧
      ∀ m ∈ f.tree.post, ∀ b t i c, m.symbolText f.lang = some (b, t) → t[i]? = some c →
        (b + i, c) ∈ Item.gone 0 items := by
  obtain ⟨items, h1, h2, h3⟩ := C31_partial o req first f out h
  refine ⟨items, h1, h2, fun p c hp => ?_, fun m hm b t i c hmt hi => ?_⟩
  · rcases (h3 p c).1 hp with ⟨hc, ⟨m, hm, sp, hs, hin⟩ | ⟨k, hk', -⟩⟩
    · rw [Mutation.symbol_eq] at hs
      cases hst : m.symbolText f.lang with
      | none => rw [hst] at hs; cases hs
      | some bt =>
        obtain ⟨b, t⟩ := bt
        rw [hst] at hs
        simp only [Option.map_some, Option.some.injEq] at hs
        subst hs
        have hb : b ≤ p := hin.1
        have he : p < b + t.length := hin.2
        refine ⟨m, hm, b, t, hst, hb, ?_⟩
        obtain ⟨u, hu⟩ := hsp m hm b t hst
        have : (f.src.drop b)[p - b]? = some c := by
          rw [List.getElem?_drop, show b + (p - b) = p by omega]
          exact hc
        rw [← hu, List.getElem?_append_left (by omega)] at this
        exact this
    · rw [hk] at hk'
      cases hk'
  · have hlt : i < t.length := by
      rw [List.getElem?_eq_some_iff] at hi
      exact hi.1
    rw [h3]
    refine ⟨?_, .inl ⟨m, hm, ⟨b, b + t.length⟩, ?_, ?_, ?_⟩⟩
    · obtain ⟨u, hu⟩ := hsp m hm b t hmt
      have : (t ++ u)[i]? = some c := by rw [List.getElem?_append_left hlt]; exact hi
      rw [hu, List.getElem?_drop] at this
      exact this
    · rw [Mutation.symbol_eq, hmt]; rfl
    · exact Nat.le_add_right _ _
    · show b + i < b + t.length
      omega

namespace Sample

/-- A file in which the operator of `a + b` is replaced. -/
def plusFile : SourceFile := file t!"a.cc" cpp

/-- `int q[$N];int x=-y;` where `$N` is a constant of value 3. -/
def constFile : SourceFile :=
  { name := t!"c.c", lang := c, src := t!"int q[$N];int x=-y;", hasErrors := false
    tree := .node [.un ⟨.minus, intVal, intVal, some 16, ⟨16, 18⟩, info, info, []⟩] []
    consts := [⟨⟨6, 8⟩, 3⟩], preludeOff := none }

end Sample

/-- The hypotheses of `C31_operators` hold for a file with a replaced operator. -/
example :
    (handleTU Sample.opts true 0 Sample.plusFile).output.isSome ∧ Sample.plusFile.consts = [] ∧
    (∀ m ∈ Sample.plusFile.tree.post, ∀ b t, m.symbolText Sample.plusFile.lang = some (b, t) →
      t <+: Sample.plusFile.src.drop b) ∧
    ∃ m ∈ Sample.plusFile.tree.post, (m.symbolText Sample.plusFile.lang).isSome := by
  refine ⟨by decide, rfl, ?_, ?_⟩
  · have : ∀ m ∈ Sample.plusFile.tree.post,
        (m.symbolText Sample.plusFile.lang).all fun (b, t) =>
          t.isPrefixOf (Sample.plusFile.src.drop b) := by decide
    intro m hm b t hmt
    have := this m hm
    rw [hmt] at this
    exact List.isPrefixOf_iff_prefix.1 this
  · exact ⟨.bin (Sample.bin .add Sample.intVal Sample.intVal), by decide, by decide⟩

/-- Every character of the original that is not gone is in the new text. -/
theorem Item.kept {items : List Item} {c : Char} (o : Nat) (h : c ∈ Item.oldText items) :
    c ∈ Item.newText items ∨ ∃ p, (p, c) ∈ Item.gone o items := by
  induction items generalizing o with
  | nil => cases h
  | cons x r ih =>
    cases x with
    | keep d =>
      rcases List.mem_cons.1 h with rfl | h
      · exact .inl (List.mem_cons_self ..)
      · exact (ih (o + 1) h).imp (List.mem_cons_of_mem _) id
    | del d =>
      rcases List.mem_cons.1 h with rfl | h
      · exact .inr ⟨o, List.mem_cons_self ..⟩
      · exact (ih (o + 1) h).imp id fun ⟨p, hp⟩ => ⟨p, List.mem_cons_of_mem _ hp⟩
    | ins t => exact (ih o h).imp (List.mem_append_right _) id

/-- C31 fails for constants that are rewritten: they are gone although they are not
operator symbols. -/
theorem C31_false :
    ∃ (o : Options) (f : SourceFile) (out : Text),
      (handleTU o true 0 f).output = some out ∧
      (∀ m ∈ f.tree.post, ∀ b t, m.symbolText f.lang = some (b, t) → t <+: f.src.drop b) ∧
      ¬ ∃ items : List Item, Item.oldText items = f.src ∧ Item.newText items = out ∧
        ∀ p c, (p, c) ∈ Item.gone 0 items →
          ∃ m ∈ f.tree.post, ∃ b t, m.symbolText f.lang = some (b, t) ∧ c ∈ t := by
  obtain ⟨out, hout, hd⟩ : ∃ out, (handleTU Sample.opts true 0 Sample.constFile).output = some out ∧
      out.contains '$' = false := ⟨_, rfl, by decide +kernel⟩
  refine ⟨Sample.opts, Sample.constFile, out, hout, ?_, ?_⟩
  · have : ∀ m ∈ Sample.constFile.tree.post,
        (m.symbolText Sample.constFile.lang).all fun (b, t) =>
          t.isPrefixOf (Sample.constFile.src.drop b) := by decide
    intro m hm b t hmt
    have := this m hm
    rw [hmt] at this
    exact List.isPrefixOf_iff_prefix.1 this
  · rintro ⟨items, h1, h2, h3⟩
    have hin : '$' ∈ Item.oldText items := by rw [h1]; decide
    rcases Item.kept 0 hin with h | ⟨p, h⟩
    · rw [h2] at h
      rw [List.contains_eq_mem, decide_eq_false_iff_not] at hd
      exact hd h
    · obtain ⟨m, hm, b, t, hmt, hc⟩ := h3 _ _ h
      have hall : ∀ m ∈ Sample.constFile.tree.post,
          (m.symbolText Sample.constFile.lang).all fun (_, t) => !t.contains '$' := by decide
      have := hall m hm
      rw [hmt] at this
      simp at this
      exact this hc

end Dredd
