/-
C63: what the output means.
-/
import Verif.Proofs.CSemFile
import Verif.Proofs.CSemSample
import Verif.Spec.SampleMachine
import Verif.Props.C62
import Verif.Props.C18

namespace Dredd

variable {S V D R : Type} {Ok : D → Prop}

/-- C63: the meaning of an instrumented phrase, read as C or C++.  Let `K` be any semantics that has
the rules of C or C++ for the constructs that are inserted, with `fs` as the generated functions, and
agrees with the elaboration of the source on everything else.  The trees of the instrumented phrase
mean what the elaborated source means in the instrumented program of `Sem/Prog.lean`, the program
that C13 to C21 and C50 are about.  (Trees whose meanings are statements may be several, which are
executed one after the other.) -/
theorem C63 (K : Sem (S × D) V R) (E : Elab S V R) (M : Machine S V) (dev : Device D) (fs : List CFn)
    (G : Grammar) (l : Lang) (o : Options) (first id fuel : Nat)
    (calls : Nat → List V → Comp (S × D) V) (hG : G.Has l.cpp) (hK : K.Has M dev fs l.cpp)
    (hA : K.Agrees E (Interp.instrumented l o M dev first) calls fuel) (hM : M.ConvOnce)
    (hT : l.cpp = false → M.IntTruth l) (x : Syn) (hp : x.Parsed G l.cpp)
    (hm : ∀ m ∈ Lay.mutsL x.lay, m.Readable l ∧ m.In fs l o) (p : SrcPart S V R)
    (he : x.elab E l o (first + id) = some [p]) :
    (∃ t, x.instr l o id = [t] ∧
      t.mean K = some (p.den (Interp.instrumented l o M dev first) calls fuel)) ∨
    (∃ a cs, p = .stm a ∧ Tree.meanL K (x.instr l o id) = some (cs.map .stm) ∧ cs ≠ [] ∧
      seqAll cs = a.code (Interp.instrumented l o M dev first) calls fuel) := by
  obtain ⟨ds, h1, h2⟩ := Syn.instr_mean hA hG hK hM hT x id [p] hp hm he
  cases p with
  | stm a =>
    right
    refine ⟨a, ?_⟩
    suffices h : ∀ {ds : List (Den (S × D) V R)} {c}, Splits ds [.stm c] →
        ∃ cs, ds = cs.map .stm ∧ cs ≠ [] ∧ seqAll cs = c by
      obtain ⟨cs, e1, e2, e3⟩ := h h2
      exact ⟨cs, rfl, by rw [h1, e1], e2, e3⟩
    intro ds
    induction ds with
    | nil => intro c h; cases h
    | cons d ds ih =>
      intro c h
      cases h with
      | cons _ h =>
        cases h
        exact ⟨[c], rfl, by simp, seqAll_one c⟩
      | split c1 c2 h =>
        obtain ⟨cs, e1, e2, e3⟩ := ih h
        exact ⟨c1 :: cs, by simp [e1], by simp, by rw [seqAll, e3]⟩
  | _ =>
    left
    rw [h2.single (by intro c h; cases h)] at h1
    exact Tree.meanL_single h1

theorem run_eq {K : (Nat → List V → Comp (S × D) V) → Nat → Sem (S × D) V R} {P : Prog S V}
    {I : Interp S (S × D) V} {t : Tree} {fns : List (Nat × Stm S V)}
    (h : ∀ calls fuel, t.mean (K calls fuel) = some ((SrcPart.unit fns).den I calls fuel))
    (hP : ∀ g a, fns.lookup g = some a → P.body g = a) (k : Nat) :
    ∀ g vs, t.run K P I k g vs = P.call I k g vs := by
  induction k with
  | zero => intro g vs; rfl
  | succ k ih =>
    intro g vs
    have he : t.run K P I k = P.call I k := funext fun g => funext fun vs => ih g vs
    simp only [Tree.run, Prog.call, he, h, SrcPart.den]
    have : ∀ fns : List (Nat × Stm S V), (∀ a, fns.lookup g = some a → P.body g = a) →
        ((fns.map fun x => (x.1, x.2.exec I (P.call I k) k)).lookup g).getD
          ((P.body g).exec I (P.call I k) k) = (P.body g).exec I (P.call I k) k := by
      intro fns
      induction fns with
      | nil => intro _; rfl
      | cons x xs ih =>
        intro ha
        obtain ⟨n, a⟩ := x
        simp only [List.map_cons, List.lookup] at ha ⊢
        split
        next hx =>
          rw [hx] at ha
          rw [ha a rfl]
          rfl
        next hx =>
          rw [hx] at ha
          exact ih ha
    rw [this fns (hP g)]

/-- A mutated file: it begins with white space, comments and directives (`pre`), in front of the
prelude location, and is parsed behind it, as in `C62_file`.  Its points fit together as in C22.
Elaborated, it is a list of functions (`fns`), which are functions of the program `P`. -/
structure Mutated (o : Options) (req : Bool) (first : Nat) (f : SourceFile) (out pre : Text)
    (G : Grammar) (x : Syn) (E : Elab S V R) (M : Machine S V) (P : Prog S V) : Prop where
  output : (handleTU o req first f).output = some out
  white : pre = [] ∨ lastLex pre = some .white ∨ lastLex pre = some .comment
  src : f.src = pre ++ Lay.srcL x.lay
  loc : f.preludeOff.getD 0 = pre.length
  muts : f.tree.post = Lay.mutsL x.lay
  consts : f.consts.Perm (Lay.constsL pre.length x.lay)
  fits : Lay.FitsL pre.length x.lay
  spaced : Lay.spaced x.lay
  apart : Lay.ApartL x.lay
  grammar : G.Has f.lang.cpp
  parsed : x.Parsed G f.lang.cpp
  lexed : x.Lexed none
  coherent : ∃ RB RU, ∀ m ∈ f.tree.post, m.Coherent f.lang RB RU
  star : o.showAst = true → ∀ m ∈ f.tree.post, '*' ∉ m.node
  once : M.ConvOnce
  truth : f.lang.cpp = false → M.IntTruth f.lang
  functions : ∃ fns, x.elab E f.lang o first = some [.unit fns] ∧
    ∀ g a, fns.lookup g = some a → P.body g = a

/-- The output is text in front of the prelude, the prelude, definitions that are read as the
functions `fs` (as in C59), and a program with the tokens of a tree `t` of the grammar. -/
structure OutputIs (o : Options) (req : Bool) (first : Nat) (f : SourceFile) (out pre : Text)
    (G : Grammar) (fs : List CFn) (t : Tree) : Prop where
  parts : ∃ defs back : Text,
    out = pre ++ (preludeText f.lang o first ((handleTU o req first f).nextId - first) ++ defs) ++ back ∧
    readFns defs = some fs ∧ tokens back = t.yield ∧
    tokens out = tokens pre ++
      tokens (preludeText f.lang o first ((handleTU o req first f).nextId - first)) ++ tokens defs ++
      tokens back
  valid : t.Valid G
  names : ∀ g ∈ fs, t!"__dredd_replace_" <+: g.name

/-- A semantics of the language: it gives the inserted constructs the meanings they have in C or
C++, with functions `fs` and a prelude that does what `dev` says, and agrees with the elaboration on
the rest. -/
def Sound (K : (Nat → List V → Comp (S × D) V) → Nat → Sem (S × D) V R) (E : Elab S V R)
    (M : Machine S V) (dev : Device D) (fs : List CFn) (l : Lang) (o : Options) (first : Nat) : Prop :=
  ∀ calls fuel, (K calls fuel).Has M dev fs l.cpp ∧
    (K calls fuel).Agrees E (Interp.instrumented l o M dev first) calls fuel

/-- C63: whatever the semantics of the language, running functions of the output text of a mutated
file is running those of the instrumented program of `Sem/Prog.lean`. -/
theorem C63_program (o : Options) (req : Bool) (first : Nat) (f : SourceFile) (out pre : Text)
    (G : Grammar) (x : Syn) (E : Elab S V R) (M : Machine S V) (P : Prog S V)
    (h : Mutated o req first f out pre G x E M P) :
    ∃ (fs : List CFn) (t : Tree), OutputIs o req first f out pre G fs t ∧
      ∀ (D : Type) (dev : Device D) (K : (Nat → List V → Comp (S × D) V) → Nat → Sem (S × D) V R),
        Sound K E M dev fs f.lang o first →
        ∀ k g vs, t.run K P (Interp.instrumented f.lang o M dev first) k g vs =
          P.call (Interp.instrumented f.lang o M dev first) k g vs := by
  obtain ⟨RB, RU, hcoh⟩ := h.coherent
  obtain ⟨fns, hE, hP⟩ := h.functions
  have hr : ∀ m ∈ f.tree.post, m.Readable f.lang ∧ (o.showAst = true → '*' ∉ m.node) :=
    fun m hm => ⟨C59_coherent _ _ _ _ (hcoh m hm), fun ha => h.star ha m hm⟩
  obtain ⟨pts, ds, hpts, -, hmem, e, ht, hv⟩ := file_trees o req first f out pre G x h.output h.white h.src
    h.loc h.muts h.consts h.fits h.spaced h.apart h.grammar h.parsed h.lexed hr
  have hback := (C62 G f.lang o 0 x h.grammar h.parsed h.lexed (by rw [← h.muts]; exact hr)).1
  obtain ⟨fs, h1, h2, h3⟩ := defs_in o first f RB RU hcoh pts ds hpts hmem
  have hin : ∀ m ∈ Lay.mutsL x.lay, m.Readable f.lang ∧ m.In fs f.lang o := by
    rw [← h.muts]
    exact fun m hm => ⟨(hr m hm).1, h2 m hm⟩
  have hmean := fun (D : Type) (dev : Device D) (K : Sem (S × D) V R) calls fuel hK hA =>
    C63 K E M dev fs G f.lang o first 0 fuel calls h.grammar hK hA h.once h.truth x h.parsed hin
      (.unit fns) hE
  obtain ⟨t, hone⟩ : ∃ t, x.instr f.lang o 0 = [t] := by
    cases x with
    | node p ks => exact ⟨_, rfl⟩
    | _ =>
      exfalso
      revert hE
      simp only [Syn.elab, Option.some.injEq, reduceCtorEq, imp_false, List.cons.injEq, and_true,
        Option.map_eq_some_iff, Option.bind_eq_some_iff]
      grind
  rw [hone] at hback hv ht
  refine ⟨fs, t, ⟨⟨_, _, e, h1, by simpa [Tree.yieldL] using hback, by rw [ht, hback]⟩, hv.1, h3⟩, ?_⟩
  intro D dev K hK
  refine run_eq (fun calls fuel => ?_) hP
  rcases hmean D dev (K calls fuel) calls fuel (hK calls fuel).1 (hK calls fuel).2 with ⟨t', h3, h4⟩ | ⟨a, _, h3, _⟩
  · rw [hone] at h3
    cases h3
    exact h4
  · cases h3

/-- C63: with no mutant of the file enabled, the output text behaves as the original program (as in
C18). -/
theorem C63_original (o : Options) (req : Bool) (first : Nat) (f : SourceFile) (out pre : Text)
    (G : Grammar) (x : Syn) (E : Elab S V R) (M : Machine S V) (P : Prog S V)
    (h : Mutated o req first f out pre G x E M P) (ho : o.track = false) (n : Nat) (all : Prop)
    (hP : P.All (originalSites f.lang o M first n all P)) :
    ∃ (fs : List CFn) (t : Tree), OutputIs o req first f out pre G fs t ∧
      ∀ (D : Type) (dev : Device D) (K : (Nat → List V → Comp (S × D) V) → Nat → Sem (S × D) V R)
        (Ok : D → Prop) (enabled : Nat → Bool),
        Sound K E M dev fs f.lang o first → dev.Faithful Ok (fun i => enabled (first + i)) n →
        (∀ i, first ≤ i → i < first + n → enabled i = false) →
        ∀ k g vs, Sim Ok all (P.call (Interp.original f.lang M) k g vs)
          (t.run K P (Interp.instrumented f.lang o M dev first) k g vs) := by
  obtain ⟨fs, t, h1, h2⟩ := C63_program o req first f out pre G x E M P h
  refine ⟨fs, t, h1, fun D dev K Ok enabled hK hdev hen k g vs => ?_⟩
  rw [h2 D dev K hK]
  exact C18_original f.lang o M dev enabled first n hdev ho hen all P hP k g vs

/-- C63: with any mutants enabled, the output text behaves as the mutant that they stand for (as in
C50). -/
theorem C63_mutant (o : Options) (req : Bool) (first : Nat) (f : SourceFile) (out pre : Text)
    (G : Grammar) (x : Syn) (E : Elab S V R) (M : Machine S V) (P : Prog S V)
    (h : Mutated o req first f out pre G x E M P) (ho : o.track = false) (n : Nat)
    (enabled : Nat → Bool)
    (hP : P.All (fileSites f.lang o M first n (Interp.mutant f.lang o M enabled first) P)) :
    ∃ (fs : List CFn) (t : Tree), OutputIs o req first f out pre G fs t ∧
      ∀ (D : Type) (dev : Device D) (K : (Nat → List V → Comp (S × D) V) → Nat → Sem (S × D) V R)
        (Ok : D → Prop),
        Sound K E M dev fs f.lang o first → dev.Faithful Ok (fun i => enabled (first + i)) n →
        ∀ k g vs, Sim Ok True (P.call (Interp.mutant f.lang o M enabled first) k g vs)
          (t.run K P (Interp.instrumented f.lang o M dev first) k g vs) := by
  obtain ⟨fs, t, h1, h2⟩ := C63_program o req first f out pre G x E M P h
  refine ⟨fs, t, h1, fun D dev K Ok hK hdev k g vs => ?_⟩
  rw [h2 D dev K hK]
  exact C50_mutant f.lang o M dev enabled first n hdev ho P hP k g vs

/-- C63: the output text of a tracking run behaves as the output text of a mutating run for the
same file, no mutant being enabled, under the condition of C19 (groups have mutants). -/
theorem C63_tracking (o o' : Options) (req req' : Bool) (first : Nat) (f : SourceFile)
    (out out' pre : Text) (G : Grammar) (x : Syn) (E : Elab S V R) (M : Machine S V) (P : Prog S V)
    (h : Mutated o req first f out pre G x E M P) (h' : Mutated o' req' first f out' pre G x E M P)
    (ho : o.track = true) (ho' : o'.track = false) (hopt : o'.optimise = o.optimise) (n : Nat)
    (hP : P.All (trackSites f.lang o M first n (Interp.mutant f.lang o' M (fun _ => false) first) P)) :
    ∃ (fs fs' : List CFn) (t t' : Tree), OutputIs o req first f out pre G fs t ∧
      OutputIs o' req' first f out' pre G fs' t' ∧
      ∀ (D D' : Type) (dev : Device D) (dev' : Device D')
        (K : (Nat → List V → Comp (S × D) V) → Nat → Sem (S × D) V R)
        (K' : (Nat → List V → Comp (S × D') V) → Nat → Sem (S × D') V R)
        (Ok : D → Prop) (Ok' : D' → Prop) (enabled : Nat → Bool),
        Sound K E M dev fs f.lang o first → Sound K' E M dev' fs' f.lang o' first →
        dev.Records Ok n → dev'.Faithful Ok' (fun i => enabled (first + i)) n →
        (∀ i, first ≤ i → i < first + n → enabled i = false) →
        ∀ k g vs s d d', Ok d → Ok' d' →
          (∀ r, t.run K P (Interp.instrumented f.lang o M dev first) k g vs (s, d) r →
            ∃ r', t'.run K' P (Interp.instrumented f.lang o' M dev' first) k g vs (s, d') r' ∧ r.Same r') ∧
          (∀ r', t'.run K' P (Interp.instrumented f.lang o' M dev' first) k g vs (s, d') r' →
            ∃ r, t.run K P (Interp.instrumented f.lang o M dev first) k g vs (s, d) r ∧ r'.Same r) := by
  obtain ⟨fs, t, h1, h2⟩ := C63_program o req first f out pre G x E M P h
  obtain ⟨fs', t', h1', h2'⟩ := C63_program o' req' first f out' pre G x E M P h'
  refine ⟨fs, fs', t, t', h1, h1', fun D D' dev dev' K K' Ok Ok' enabled hK hK' hdev hdev' hen k g vs s d d' hd hd' => ?_⟩
  rw [h2 D dev K hK, h2' D' dev' K' hK']
  exact C19_tracking_partial f.lang o o' M dev dev' enabled first n hdev hdev' ho ho' hopt hen P hP k g vs s d d'
    hd hd'

/-! ### An example -/

namespace Sample

/-- The names of `void f(){a(); x=-b;}`: `x` is the variable at address 0, `b` has the value 7. -/
def names : Mini.Env Int Int where
  vars x := if x = t!"x" then some (t!"int&", .pure 0) else if x = t!"b" then some (t!"int", .pure 7) else none
  funs x := if x = t!"f" then some 0 else if x = t!"a" then some 1 else none
  numVal n := n

/-- The body of `f`, elaborated. -/
def funBody : Stm Int Int :=
  .seq (.removable 5 (.expr (.call 1 0 Fin.elim0)))
    (.seq (.removable 30 (.expr (.binAt assignX 20 (.atom (.pure 0))
      (.load t!"int" (.exprAt exprMinusB 14 (.load t!"int" (.unAt minusB 12
        (.load t!"int" (.exprAt exprB 6 (.load t!"int" (.atom (.pure 7)))))))))))) .skip)

/-- The program; `a` adds one to the variable. -/
def funProg : Prog Int Int where
  body g := if g = 0 then funBody else .expr (.atom (.lift inc))
  enter _ _ s := some ((), s)
  leave _ _ s := some (0, s)

theorem funSyn_elab (o : Options) (ho : o = opts ∨ o = track) :
    funSyn.elab names.elab cpp o 5 = some [.unit [(0, funBody)]] := by
  rcases ho with rfl | rfl <;> rfl

theorem funFile_mutated (o : Options) (ho : o = opts ∨ o = track) :
    ∃ out, Mutated o true 5 funFile out t!"// f\n" (cGrammar true) funSyn
    names.elab (machine .cppOld) funProg := by
  have hout : ∃ out, (handleTU o true 5 funFile).output = some out := by
    rcases ho with rfl | rfl <;> exact ⟨_, rfl⟩
  have hast : o.showAst = false := by rcases ho with rfl | rfl <;> rfl
  obtain ⟨out, hout⟩ := hout
  refine ⟨out, hout, .inr (.inl (by decide)), by decide, by decide, by decide, .refl _, ?_, by decide, ?_,
    cGrammar_has _, funSyn_parsed, funSyn_lexed, ⟨resB, resU, ?_⟩, (fun h => by rw [hast] at h; cases h), ?_,
    (fun h => nomatch h), ⟨_, funSyn_elab o ho, ?_⟩⟩
  · refine ⟨trivial, trivial, trivial, trivial, trivial, trivial, ?_⟩
    simp [Syn.lay, Syn.layL, gapLay, Sample.nameS, Sample.stmtA, Sample.stmtB, Sample.assignX, Sample.minusB,
      Sample.exprMinusB, Sample.exprB, Lay.FitsL, Lay.Fits, Lay.srcL, Lay.src]
    decide
  · simp [Sample.funSyn, Syn.lay, Syn.layL, gapLay, Sample.nameS, Lay.ApartL, Lay.Apart, Lay.spaced, Lay.isNode]
  · intro m hm
    have : m ∈ [Mutation.stmt Sample.stmtA, .expr Sample.exprB, .un Sample.minusB,
      .expr Sample.exprMinusB, .bin Sample.assignX, .stmt Sample.stmtB] := hm
    simp only [List.mem_cons, List.not_mem_nil, or_false] at this
    rcases this with rfl | rfl | rfl | rfl | rfl | rfl <;>
      simp [Mutation.Coherent, Sample.minusB, Sample.assignX, UOp.fnName?, BOp.fnName?,
        exprB, exprMinusB, intVal, intVar, resB, resU, UOp.isIncDec]
    decide
  · intro ty v s w s' h
    cases h
    rfl
  · intro g a h
    cases g with
    | zero => cases h; rfl
    | succ g => cases h

/-- A semantics of the language. -/
noncomputable def funSem (o : Options) (dev : Device D) (fs : List CFn)
    (calls : Nat → List Int → Comp (Int × D) Int) (fuel : Nat) : Sem (Int × D) Int Nat :=
  Mini.Ctx.sem ⟨names, machine .cppOld, dev, fs, Interp.instrumented cpp o (machine .cppOld) dev 5, calls, fuel⟩

theorem funSem_sound (o : Options) (dev : Device D) (fs : List CFn)
    (h : ∀ g ∈ fs, t!"__dredd_replace_" <+: g.name) :
    Sound (funSem o dev fs) names.elab (machine .cppOld) dev fs cpp o 5 := by
  intro calls fuel
  refine ⟨Mini.sem_has _ _ fun f hf => ?_, Mini.sem_agrees (l := cpp) (o := o) (first := 5) rfl⟩
  obtain ⟨z, hz⟩ := h f hf
  rw [← hz]
  constructor <;> exact fun h => by simp at h

end Sample

/-- The hypotheses of the theorems can be met: the output for `void f(){a(); x=-b;}`, with mutants
12 (which stands at the minus) and 30 (the second statement) enabled. -/
example : ∃ (out : Text) (fs : List CFn) (t : Tree),
    (handleTU Sample.opts true 5 Sample.funFile).output = some out ∧
    OutputIs Sample.opts true 5 Sample.funFile out t!"// f\n" (cGrammar true) fs t ∧
    ∀ (D : Type) (dev : Device D) (Ok : D → Prop),
      dev.Faithful Ok (fun i => inList [12, 30] (5 + i)) 26 →
      ∀ k, Sim Ok True
        (Sample.funProg.call (Interp.mutant Sample.cpp Sample.opts (Sample.machine .cppOld) (inList [12, 30]) 5) k 0 [])
        (t.run (Sample.funSem Sample.opts dev fs) Sample.funProg
          (Interp.instrumented Sample.cpp Sample.opts (Sample.machine .cppOld) dev 5) k 0 []) := by
  obtain ⟨out, h⟩ := Sample.funFile_mutated Sample.opts (.inl rfl)
  obtain ⟨fs, t, h1, h2⟩ := C63_mutant Sample.opts true 5 Sample.funFile out _ _ _ _ _ _ h rfl 26 (inList [12, 30]) (by
    intro g
    unfold Sample.funProg
    dsimp only
    split
    · refine ⟨⟨⟨by decide, by decide⟩, fun i => i.elim0⟩, ⟨⟨by decide, by decide⟩, ?_⟩, trivial⟩
      exact ⟨⟨by decide, by decide, fun h => by cases h⟩, trivial, ⟨by decide, by decide⟩, ⟨by decide, by decide⟩,
        ⟨by decide, by decide⟩, trivial⟩
    · trivial)
  exact ⟨out, fs, t, h.output, h1, fun D dev Ok hdev k =>
    h2 D dev _ Ok (Sample.funSem_sound _ dev fs h1.names) hdev k 0 []⟩

/-- The same with no mutant enabled. -/
example : ∃ (out : Text) (fs : List CFn) (t : Tree),
    OutputIs Sample.opts true 5 Sample.funFile out t!"// f\n" (cGrammar true) fs t ∧
    ∀ (D : Type) (dev : Device D) (Ok : D → Prop),
      dev.Faithful Ok (fun i => inList [4, 31] (5 + i)) 26 →
      ∀ k, Sim Ok True
        (Sample.funProg.call (Interp.original Sample.cpp (Sample.machine .cppOld)) k 0 [])
        (t.run (Sample.funSem Sample.opts dev fs) Sample.funProg
          (Interp.instrumented Sample.cpp Sample.opts (Sample.machine .cppOld) dev 5) k 0 []) := by
  obtain ⟨out, h⟩ := Sample.funFile_mutated Sample.opts (.inl rfl)
  obtain ⟨fs, t, h1, h2⟩ := C63_original Sample.opts true 5 Sample.funFile out _ _ _ _ _ _ h rfl 26 True (by
    intro g
    unfold Sample.funProg
    dsimp only
    split
    · refine ⟨⟨⟨by decide, by decide⟩, fun i => i.elim0⟩, ⟨⟨by decide, by decide⟩, ?_⟩, trivial⟩
      refine ⟨⟨by decide, by decide, by decide, ?_⟩, trivial, ⟨by decide, by decide, ?_⟩,
        ⟨by decide, by decide, fun _ => ⟨fun _ _ _ _ _ _ _ => rfl, fun h => by cases h⟩⟩, ⟨by decide, by decide, ?_⟩, trivial⟩
      · exact fun k => ⟨⟨fun _ _ _ _ _ _ _ _ _ => rfl, fun h => by cases h⟩, .inr (.inr rfl)⟩
      · exact fun _ _ _ _ _ => rfl
      · exact fun _ _ _ _ _ => rfl
    · trivial)
  refine ⟨out, fs, t, h1, fun D dev Ok hdev k =>
    h2 D dev _ Ok _ (Sample.funSem_sound _ dev fs h1.names) hdev ?_ k 0 []⟩
  intro i h3 h4
  simp [inList]
  omega

/-- And for tracking. -/
example : ∃ (fs fs' : List CFn) (t t' : Tree),
    ∀ (D D' : Type) (dev : Device D) (dev' : Device D') (Ok : D → Prop) (Ok' : D' → Prop),
      dev.Records Ok 26 → dev'.Faithful Ok' (fun i => inList [] (5 + i)) 26 →
      ∀ k s d d', Ok d → Ok' d' →
        ∀ r, t.run (Sample.funSem Sample.track dev fs) Sample.funProg
            (Interp.instrumented Sample.cpp Sample.track (Sample.machine .cppOld) dev 5) k 0 [] (s, d) r →
          ∃ r', t'.run (Sample.funSem Sample.opts dev' fs') Sample.funProg
            (Interp.instrumented Sample.cpp Sample.opts (Sample.machine .cppOld) dev' 5) k 0 [] (s, d') r' ∧
            r.Same r' := by
  obtain ⟨out, h⟩ := Sample.funFile_mutated Sample.track (.inr rfl)
  obtain ⟨out', h'⟩ := Sample.funFile_mutated Sample.opts (.inl rfl)
  obtain ⟨fs, fs', t, t', h1, h1', h2⟩ := C63_tracking Sample.track Sample.opts true true 5
    Sample.funFile out out' _ _ _ _ _ _ h h' rfl rfl rfl 26 (by
    intro g
    unfold Sample.funProg
    dsimp only
    split
    · refine ⟨⟨⟨by decide, by decide⟩, fun i => i.elim0⟩, ⟨⟨by decide, by decide⟩, ?_⟩, trivial⟩
      exact ⟨⟨by decide, by decide, by decide, fun h => by cases h⟩, trivial,
        ⟨by decide, by decide, by decide⟩, ⟨by decide, by decide, by decide⟩,
        ⟨by decide, by decide, by decide⟩, trivial⟩
    · trivial)
  exact ⟨fs, fs', t, t', fun D D' dev dev' Ok Ok' hdev hdev' k s d d' hd hd' =>
    (h2 D D' dev dev' _ _ Ok Ok' (inList []) (Sample.funSem_sound _ dev fs h1.names)
      (Sample.funSem_sound _ dev' fs' h1'.names) hdev hdev' (fun _ _ _ => rfl) k 0 [] s d d' hd hd').1⟩

/-- The original program of the example does something: it adds one, then sets the variable to -7. -/
example : Sample.funProg.call (Interp.original Sample.cpp (Sample.machine .cppOld)) 2 0 [] 3
    (.done 0 (-7)) := by
  refine ⟨.done () 3, rfl, .done .normal (-7), ⟨.done .normal (-7), ?_, rfl⟩, rfl⟩
  refine ⟨.done .normal 4, ⟨.done 0 4, ⟨.done [] 3, ⟨[], .refl _, .done [] 3, rfl, rfl⟩, ?_⟩, rfl⟩,
    .done .normal (-7), ⟨.done (-7) (-7), ⟨.done (0, -7) 4, .inl ⟨.done 0 4, rfl, .done (-7) 4, ?_, rfl⟩, rfl⟩, rfl⟩, rfl⟩
  · exact ⟨.done () 3, rfl, .done .normal 4, ⟨.done .normal 4, ⟨.done 4 4, rfl, rfl⟩, rfl⟩, rfl⟩
  · exact ⟨.done (-7) 4, ⟨.done (-7) 4, ⟨.done 7 4, ⟨.done 7 4, ⟨.done 7 4, rfl, rfl⟩, rfl⟩, rfl⟩, rfl⟩, rfl⟩

end Dredd
