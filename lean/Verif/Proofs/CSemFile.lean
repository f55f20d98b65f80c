/-
The generated functions of a file are those that its instrumented points call (C63).
-/
import Verif.Proofs.CSem

namespace Dredd

/-- The functions of a point do not depend on its ids. -/
theorem decls_same (m : Mutation) (l : Lang) (o : Options) (first first' id id' : Nat) :
    (m.apply l o first id).decls = (m.apply l o first' id').decls := by
  cases m with
  | bin s =>
    simp only [Mutation.apply, BinSite.apply]
    split
    · rfl
    · have : s.genFn l o id = s.genFn l o id' := by
        have h := (s.genFn_lines l o id).trans (s.genFn_lines l o id').symm
        simp only [BinSite.genFn] at h ⊢
        rw [h]
      rw [this]
  | un s =>
    have : s.genFn l o id = s.genFn l o id' := by
      have h := (s.genFn_lines l o id).trans (s.genFn_lines l o id').symm
      simp only [UnSite.genFn] at h ⊢
      rw [h]
    simp only [Mutation.apply, UnSite.apply, this]
  | expr s =>
    have : s.genFn l o id = s.genFn l o id' := by
      have h := (s.genFn_lines l o id).trans (s.genFn_lines l o id').symm
      simp only [ExprSite.genFn] at h ⊢
      rw [h]
    simp only [Mutation.apply, ExprSite.apply, this]
  | stmt s => rfl

theorem decls_shown (m : Mutation) (l : Lang) (o : Options) (first id : Nat) (h : m.Readable l)
    (f : MutFn) (hf : f ∈ (m.apply l o first id).decls) : ∀ p ∈ f.params, p.Shown := by
  cases m with
  | bin s =>
    rcases BinSite.decls_cases hf with ⟨_, rfl⟩ | ⟨_, hf⟩
    · exact (s.fn_plain l o id h).2.1
    · exact (cLogical_plain s l o f hf).2.1
  | un s => rw [UnSite.decls_eq hf]; exact (s.fn_plain l o id h).2.1
  | expr s => rw [ExprSite.decls_eq hf]; exact (s.fn_plain l o id h).2.1
  | stmt s => exact absurd hf List.not_mem_nil

theorem ArgMode.passed_inj {a b : ArgMode} (h : a.passed = b.passed) : a = b := by
  cases a <;> cases b <;> first | rfl | cases h

/-- What is read says how the arguments are passed. -/
theorem read_pass (f : MutFn) (hp : f.Plain) (hs : ∀ p ∈ f.params, p.Shown) :
    f.read.params.dropLast.map CParam.pass = f.params.map fun p => p.mode.passed := by
  simp only [MutFn.read, List.dropLast_concat, List.map_map]
  exact List.map_congr_left fun p h => p.shown_pass (hs p h) (hp.tys p h)

theorem modes_of_passed {ps qs : List Param}
    (h : (ps.map fun p => p.mode.passed) = qs.map fun p => p.mode.passed) :
    ps.map Param.mode = qs.map Param.mode := by
  induction ps generalizing qs with
  | nil => cases qs with
    | nil => rfl
    | cons => cases h
  | cons p ps ih => cases qs with
    | nil => cases h
    | cons q qs =>
      simp only [List.map_cons, List.cons.injEq] at h ⊢
      exact ⟨ArgMode.passed_inj h.1, ih h.2⟩

theorem decls_replace (m : Mutation) (l : Lang) (o : Options) (first id : Nat) (f : MutFn)
    (hf : f ∈ (m.apply l o first id).decls) : t!"__dredd_replace_" <+: f.name := by
  have hb : ∀ (s : BinSite) z, t!"__dredd_replace_" <+: s.fnName l o.optimise ++ z := by
    intro s z
    unfold BinSite.fnName
    simp only [List.append_assoc]
    exact ⟨_, rfl⟩
  cases m with
  | bin s =>
    obtain ⟨e, _, he⟩ := BinSite.decls_name hf
    rw [he]
    exact hb s e
  | un s =>
    rw [UnSite.decls_eq hf]
    show _ <+: s.fnName l o.optimise
    unfold UnSite.fnName
    simp only [List.append_assoc]
    exact ⟨_, rfl⟩
  | expr s =>
    rw [ExprSite.decls_eq hf]
    show _ <+: s.fnName l o.optimise
    unfold ExprSite.fnName
    simp only [List.append_assoc]
    exact ⟨_, rfl⟩
  | stmt s => exact absurd hf List.not_mem_nil

/-- The definitions that are put into a file are read as functions that every call at a point can
mean, and no call can mean two of them. -/
theorem defs_in (o : Options) (first : Nat) (f : SourceFile) (RB : BOp → BTy → BTy → BTy)
    (RU : UOp → BTy → BTy) (hcoh : ∀ m ∈ f.tree.post, m.Coherent f.lang RB RU)
    (pts : List (Nat × Mutation)) (ds : List Text) (hpts : pts.map (·.2) = f.tree.post)
    (hmem : ∀ t, t ∈ ds ↔ ∃ p ∈ pts, ∃ fn ∈ (p.2.apply f.lang o first p.1).decls, t = fn.render) :
    ∃ fs, readFns ds.reverse.flatten = some fs ∧ (∀ m ∈ f.tree.post, m.In fs f.lang o) ∧
      ∀ g ∈ fs, t!"__dredd_replace_" <+: g.name := by
  have hr := fun m h => C59_coherent f.lang RB RU m (hcoh m h)
  have hcp : ∀ p ∈ pts, p.2 ∈ f.tree.post := by
    intro p hp
    rw [← hpts]
    exact List.mem_map.mpr ⟨p, hp, rfl⟩
  obtain ⟨fns, hf1, hf2⟩ := renders_from f.lang o first pts ds.reverse
    fun t ht => (hmem t).mp (List.mem_reverse.mp ht)
  have hplain : ∀ fn ∈ fns, fn.Plain ∧ ∀ p ∈ fn.params, p.Shown := by
    intro fn hfn
    obtain ⟨p, hp, hd⟩ := hf2 fn hfn
    exact ⟨decls_plain p.2 f.lang o first p.1 (hr _ (hcp p hp)) fn hd,
      decls_shown p.2 f.lang o first p.1 (hr _ (hcp p hp)) fn hd⟩
  refine ⟨fns.map MutFn.read,
    by rw [← hf1, ← List.flatMap_def]; exact fns_read fns fun f h => (hplain f h).1, ?_, ?_⟩
  rotate_left
  · intro g hg
    obtain ⟨fn, hfn, rfl⟩ := List.mem_map.mp hg
    obtain ⟨p, hp, hd⟩ := hf2 fn hfn
    exact decls_replace _ _ _ _ _ _ hd
  intro m hm first' id fn hfn
  have h1 := decls_plain m f.lang o first' id (hr m hm) fn hfn
  have h2 := decls_shown m f.lang o first' id (hr m hm) fn hfn
  constructor
  · have hm' := hm
    rw [← hpts] at hm'
    obtain ⟨p, hp, rfl⟩ := List.mem_map.mp hm'
    rw [decls_same _ _ _ _ first _ p.1] at hfn
    have hren : fn.render ∈ fns.map MutFn.render := by
      rw [hf1, List.mem_reverse]
      exact (hmem _).mpr ⟨p, hp, fn, hfn, rfl⟩
    obtain ⟨g, hg, he⟩ := List.mem_map.mp hren
    rw [← read_of_render (hplain g hg).1 h1 he]
    exact List.mem_map.mpr ⟨g, hg, rfl⟩
  · intro g hg hn hpass
    obtain ⟨fn', hfn', rfl⟩ := List.mem_map.mp hg
    obtain ⟨p, hp, hd⟩ := hf2 fn' hfn'
    rw [C22_call f.lang o RB RU p.2 m (hcoh _ (hcp p hp)) (hcoh m hm) first first' p.1 id fn' fn hd hfn
      hn fun hc => ?_]
    refine modes_of_passed ?_
    have h3 := hpass hc
    rw [read_pass fn' (hplain fn' hfn').1 (hplain fn' hfn').2] at h3
    rw [h3]
    exact List.map_congr_left fun p h => p.shown_pass (h2 p h) (h1.tys p h)

end Dredd
