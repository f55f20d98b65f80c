/-
The texts of the definitions and of the prelude begin and end outside of comments and literals.
-/
import Verif.Proofs.LexEdits
import Verif.Proofs.Decls

namespace Dredd

theorem argText_plain (a : Arg) (m : ArgMode) : Plain (argText a m) := by
  cases a <;> cases m <;> decide

theorem BOp.str_spaced (op : BOp) : Plain (t!" " ++ op.str ++ t!" ") := by cases op <;> decide
theorem UOp.str_plain (op : UOp) : Plain op.str := by cases op <;> decide
theorem Lit.str_plain (x : Lit) : Plain x.str := by cases x <;> decide

theorem RetE.render_plain (m : Arg → ArgMode) (e : RetE) : Plain (e.render m) := by
  have ha := fun a => argText_plain a (m a)
  cases e with
  | bin op =>
    have : RetE.render m (.bin op) =
        argText .arg1 (m .arg1) ++ (t!" " ++ op.str ++ t!" ") ++ argText .arg2 (m .arg2) := by
      simp [RetE.render]
    rw [this]
    exact ((ha _).append op.str_spaced).append (ha _)
  | arg a => exact ha a
  | un op =>
    simp only [RetE.render]
    split
    · exact op.str_plain.append (ha _)
    · exact (ha _).append op.str_plain
  | ins op => exact ((op.str_plain.append (by decide)).append (ha _)).append (by decide)
  | lit x => exact x.str_plain

theorem Line.render_plain (m : Arg → ArgMode) (x : Line) : Plain (x.render m) := by
  have he := fun e => RetE.render_plain m e
  cases x with
  | quick e => exact Plain.append (Plain.append (by decide) (he e)) (by decide)
  | guard k e =>
    exact Plain.append (Plain.append (Plain.append (Plain.append (by decide) (natDec_plain k))
      (by decide)) (he e)) (by decide)
  | record n => exact Plain.append (Plain.append (by decide) (natDec_plain n)) (by decide)
  | ret e => exact Plain.append (Plain.append (by decide) (he e)) (by decide)

theorem Plain.flatMap {α : Type} (f : α → Text) (xs : List α) (h : ∀ x ∈ xs, Plain (f x)) :
    Plain (xs.flatMap f) := by
  induction xs with
  | nil => rfl
  | cons x xs ih =>
    rw [List.flatMap_cons]
    exact (h x (List.mem_cons_self ..)).append (ih fun y hy => h y (List.mem_cons_of_mem _ hy))

theorem renderParams_plain (ps : List Param) (h : ∀ p ∈ ps, Plain p.ty) : Plain (renderParams ps) := by
  induction ps with
  | nil => rfl
  | cons p ps ih =>
    have hp := h p (List.mem_cons_self ..)
    have h1 : Plain p.tyText := by unfold Param.tyText; plain
    have h2 : Plain p.arg.name := by cases p.arg <;> decide
    have h3 := ih fun q hq => h q (List.mem_cons_of_mem _ hq)
    unfold renderParams
    plain

/-- The parts of a function are texts of this kind. -/
def MutFn.Proper (f : MutFn) : Prop :=
  Plain f.resTy ∧ Plain f.name ∧ (∀ p ∈ f.params, Plain p.ty) ∧
    (f.tail = t!"}\n" ∨ f.tail = t!"}\n\n")

theorem MutFn.render_head (f : MutFn) (h : f.Proper) : HeadTxt f.render ∧ f.render ≠ [] := by
  obtain ⟨h1, h2, h3, h4⟩ := h
  have hp := renderParams_plain f.params h3
  have hl := Plain.flatMap (Line.render f.mode) f.lines fun x _ => Line.render_plain _ x
  have ht : Seals f.tail := by
    rcases h4 with h4 | h4 <;> rw [h4]
    · exact ⟨t!"}", '\n', rfl, by decide, by decide⟩
    · exact ⟨t!"}\n", '\n', rfl, by decide, by decide⟩
  refine ⟨.inr ⟨Seals.append ?_ ht, 's', _, rfl, by decide⟩, by simp [MutFn.render]⟩
  plain

theorem Mutation.decls_proper (l : Lang) (o : Options) (first id : Nat) (m : Mutation) :
    ∀ f ∈ (m.apply l o first id).decls, f.Proper := by
  intro f hf
  cases m with
  | expr s =>
    obtain rfl := List.mem_singleton.1 hf
    refine ⟨BTy.name_plain .., s.fnName_plain .., ?_, .inr rfl⟩
    intro p hp
    obtain rfl := List.mem_singleton.1 hp
    exact s.inputTy_plain l
  | stmt s => cases hf
  | un s =>
    obtain rfl := List.mem_singleton.1 hf
    refine ⟨s.resTyText_plain l, s.fnName_plain .., ?_, .inr rfl⟩
    intro p hp
    obtain rfl := List.mem_singleton.1 hp
    exact s.inputTy_plain l
  | bin s =>
    simp only [Mutation.apply, BinSite.apply] at hf
    split at hf
    · have hn := s.fnName_plain l o.optimise
      have hlhs : (cLogicalLhsFn s l o).Proper := by
        refine ⟨BTy.name_plain .., hn.append (by decide), ?_, .inl rfl⟩
        intro p hp
        obtain rfl := List.mem_singleton.1 hp
        exact BTy.name_plain ..
      have hrhs : (cLogicalRhsFn s l o).Proper := by
        refine ⟨BTy.name_plain .., hn.append (by decide), ?_, .inl rfl⟩
        intro p hp
        obtain rfl := List.mem_singleton.1 hp
        exact BTy.name_plain ..
      have hout : (cLogicalOuterFn s l o).Proper := by
        refine ⟨BTy.name_plain .., hn.append (by decide), ?_, .inl rfl⟩
        intro p hp
        obtain rfl := List.mem_singleton.1 hp
        exact BTy.name_plain ..
      simp only [BinSite.applyCLogical] at hf
      rcases List.mem_append.1 hf with hf | hf
      · split at hf
        · cases hf
        · simp only [List.mem_cons, List.not_mem_nil, or_false] at hf
          rcases hf with rfl | rfl
          · exact hlhs
          · exact hrhs
      · obtain rfl := List.mem_singleton.1 hf
        exact hout
    · obtain rfl := List.mem_singleton.1 hf
      refine ⟨s.resTyText_plain l, s.fnName_plain .., ?_, .inr rfl⟩
      intro p hp
      simp only [BinSite.genFn, List.mem_cons, List.not_mem_nil, or_false] at hp
      rcases hp with rfl | rfl
      · exact s.lhsTyText_plain l
      · exact BTy.name_plain ..

set_option maxRecDepth 4000 in
theorem preludeText_seals (l : Lang) (o : Options) (first n : Nat) : Seals (preludeText l o first n) := by
  have nl : Seals t!"\n" := seals_char (by decide)
  unfold preludeText
  refine Seals.append (by unfold preludeStart; plain) ?_
  have h1 : Plain headersCpp := by unfold headersCpp; plain
  have h2 : Plain headersC := by unfold headersC; plain
  split <;> split
  · unfold trackingPreludeCpp
    refine Seals.append ?_ nl
    plain
  · unfold regularPreludeCpp
    refine Seals.append ?_ nl
    plain
  · unfold trackingPreludeC
    refine Seals.append ?_ nl
    plain
  · unfold regularPreludeC
    refine Seals.append ?_ nl
    plain

theorem preludeText_head (l : Lang) (o : Options) (first n : Nat) :
    ∃ cs, preludeText l o first n = '/' :: cs := ⟨_, rfl⟩

end Dredd
