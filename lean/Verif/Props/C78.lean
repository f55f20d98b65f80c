/-
C78: where the prelude goes.
-/
import Verif.Proofs.Records
import Verif.Props.C46
import Verif.Model.Analyse
import Verif.Props.C23
import Verif.Spec.SampleAst

namespace Dredd

theorem Precedes.lt {p q : List Nat} (h : Precedes p q) : p < q := by
  have key : ∀ (a : List Nat) (x y : List Nat), x < y → a ++ x < a ++ y := by
    intro a x y h
    induction a with
    | nil => exact h
    | cons b a ih => exact List.cons_lt_cons_iff.mpr (.inr ⟨rfl, ih⟩)
  rcases h with ⟨i, r, rfl⟩ | ⟨a, i, j, r, r', h, rfl, rfl⟩
  · have := key p [] (i :: r) (by simp)
    simpa using this
  · exact key a _ _ (List.cons_lt_cons_iff.mpr (.inl h))

theorem Precedes.asymm {p q : List Nat} (h : Precedes p q) (h' : Precedes q p) : False :=
  List.lt_irrefl _ (List.lt_trans h.lt h'.lt)

/-- The location that a node gives for the prelude. -/
def preludeAt : Ctx × Node → Option Nat
  | (_, .decl ⟨.func _ ph, _⟩ _) => ph
  | _ => none

theorem noteRec_prelude (l : Lang) (r : Recs) (e : Ctx × Node) :
    (noteRec l r e).prelude = r.prelude.or (preludeAt e) := by
  obtain ⟨c, n⟩ := e
  cases n with
  | decl d ks =>
    obtain ⟨kind, range⟩ := d
    cases kind <;> simp [noteRec, noteDecl, preludeAt, VState.recs]
    cases r.prelude <;> simp
  | stmt s ks => simp [noteRec, preludeAt]
  | other o ks => simp [noteRec, preludeAt]

theorem foldl_prelude (l : Lang) (evs : List (Ctx × Node)) (r : Recs) :
    (evs.foldl (noteRec l) r).prelude = r.prelude.or (evs.findSome? preludeAt) := by
  induction evs generalizing r with
  | nil => simp
  | cons e evs ih =>
    rw [List.foldl_cons, ih, noteRec_prelude, List.findSome?_cons]
    cases r.prelude <;> cases h : preludeAt e <;> simp

/-- The nodes where the location is found. -/
theorem marker_iff {l : Lang} {opt : Bool} {root : Node} (hw : WellFormed root) {p : List Nat} {off : Nat} :
    Marker l opt root p off ↔
      ∃ e : Ctx × Node, e.1.pos = p ∧ Path l opt root e.1 e.2 ∧ Records opt e ∧ preludeAt e = some off := by
  constructor
  · rintro ⟨above, d, ks, ce, hp, hk, hr, hc⟩
    obtain ⟨c, h1, h2, h3, -, h5⟩ := hp.path hw hc.outside hc.pairs hc.useful
    refine ⟨(c, .decl d ks), h2, h1, ⟨?_, .inr hr⟩, ?_⟩
    · rw [Bool.eq_false_iff, h3]
      intro h
      obtain ⟨_, _, he⟩ := h5 (isItem_iff.mp h)
      cases he
    · obtain ⟨kind, range⟩ := d
      simp only at hk
      subst hk
      rfl
  · rintro ⟨⟨c, n⟩, rfl, hp, hr, ha⟩
    match n, hp, hr, ha with
    | .stmt .., _, _, ha => simp [preludeAt] at ha
    | .other .., _, _, ha => simp [preludeAt] at ha
    | .decl ⟨kind, range⟩ ks, hp, hr, ha =>
      cases kind with
      | func ce ph =>
        simp only [preludeAt] at ha
        subst ha
        obtain ⟨above, hf⟩ := hp.reach.fine
        obtain ⟨above', h1, h2, h3⟩ := hp.useful
        obtain ⟨rfl, _⟩ := hf.place.unique h1 rfl
        refine ⟨above', _, ks, ce, hf.place, rfl, hr.2.resolve_left (by simp [Decl.isTU]), hf.outside, ?_, ?_⟩
        · have hpairs := hf.pairs
          cases above' with
          | nil => trivial
          | cons x rest =>
            refine ⟨?_, hpairs⟩
            rintro ⟨_, _, h, _⟩
            cases h
        · intro ho
          refine (h3 ho).cons fun _ => ?_
          rintro ⟨_, _, _, h, _⟩
          cases h
      | _ => simp [preludeAt] at ha

theorem Marker.unique {l : Lang} {opt : Bool} {root : Node} {p : List Nat} {off off' : Nat}
    (h : Marker l opt root p off) (h' : Marker l opt root p off') : off = off' := by
  obtain ⟨above, d, ks, ce, hp, hk, -⟩ := h
  obtain ⟨above', d', ks', ce', hp', hk', -⟩ := h'
  obtain ⟨-, he⟩ := hp.unique hp' rfl
  cases he
  rw [hk] at hk'
  cases hk'
  rfl

/-- C78: the prelude is put where the first function that is called `__dredd_prelude_start` begins,
in the order of the program text; functions in headers and in code that is never looked at do not
count. -/
theorem C78_marker (opt : Bool) (f : ParsedFile) (hw : WellFormed f.ast) (off : Nat) :
    (analyse opt f).preludeOff = some off ↔
      ∃ p, Marker f.lang opt f.ast p off ∧
        ∀ q off', Marker f.lang opt f.ast q off' → q = p ∨ Precedes p q := by
  obtain ⟨evs, h1, h2, h3⟩ := visitTU_logs f.lang opt f.ast
  have hv : (analyse opt f).preludeOff = evs.findSome? preludeAt := by
    have h : (visitTU f.lang opt f.ast).recs.prelude = evs.findSome? preludeAt := by
      rw [h1, foldl_prelude]
      simp [VState.start, VState.recs]
    exact h
  have key : ∀ off, evs.findSome? preludeAt = some off → ∃ p, Marker f.lang opt f.ast p off ∧
        ∀ q off', Marker f.lang opt f.ast q off' → q = p ∨ Precedes p q := by
    intro off h
    obtain ⟨l1, e, l2, rfl, he, hno⟩ := List.findSome?_eq_some_iff.mp h
    have hm := (h2 e).mp (by simp)
    refine ⟨e.1.pos, (marker_iff hw).mpr ⟨e, rfl, hm.1, hm.2, he⟩, ?_⟩
    intro q off' hq
    obtain ⟨e', rfl, hp', hr', ha'⟩ := (marker_iff hw).mp hq
    have hmem := (h2 e').mpr ⟨hp', hr'⟩
    rcases List.mem_append.mp hmem with hmem | hmem
    · rw [hno e' hmem] at ha'
      cases ha'
    · rcases List.mem_cons.mp hmem with rfl | hmem
      · exact .inl rfl
      · right
        rw [List.pairwise_append, List.pairwise_cons] at h3
        exact h3.2.1.1 e' hmem
  rw [hv]
  constructor
  · exact key off
  · rintro ⟨p, hp, hmin⟩
    cases hfs : evs.findSome? preludeAt with
    | none =>
      obtain ⟨e, rfl, hpath, hr, ha⟩ := (marker_iff hw).mp hp
      rw [List.findSome?_eq_none_iff] at hfs
      rw [hfs e ((h2 e).mpr ⟨hpath, hr⟩)] at ha
      cases ha
    | some off' =>
      obtain ⟨q, hq, hmin'⟩ := key off' hfs
      have : q = p := by
        rcases hmin q off' hq with h | h
        · exact h
        · rcases hmin' p off hp with h' | h'
          · exact h'.symm
          · exact (h.asymm h').elim
      subst this
      rw [hq.unique hp]

/-- C78: if there is no such function, the prelude is put at the beginning of the file. -/
theorem C78_start (opt : Bool) (f : ParsedFile) (hw : WellFormed f.ast)
    (h : ∀ p off, ¬ Marker f.lang opt f.ast p off) : (analyse opt f).preludeOff.getD 0 = 0 := by
  cases hp : (analyse opt f).preludeOff with
  | none => rfl
  | some off =>
    obtain ⟨p, hm, -⟩ := (C78_marker opt f hw off).mp hp
    exact absurd hm (h p off)

/-- Everything that a mutation changes is at this offset or behind it. -/
def Mutation.Behind (l : Lang) (m : Mutation) (loc : Nat) : Prop :=
  (∀ q ∈ m.bounds, loc ≤ q) ∧ ∀ b t, m.symbolText l = some (b, t) → loc ≤ b

/-- C78, the part that holds: if nothing in front of the prelude location is mutated and no constant
there is rewritten, then the output is the text in front of the location, unchanged; then the prelude
and all definitions; then the rest.  So everything is defined before it is used.  Without a placeholder
function the location is the beginning of the file, and nothing is in front of it.

Missing: mutated code in front of the placeholder function; see `C78_false_before`. -/
theorem C78_before_partial (o : Options) (req : Bool) (first : Nat) (f : SourceFile) (out : Text)
    (h : (handleTU o req first f).output = some out)
    (hloc : f.preludeOff.getD 0 ≤ f.src.length)
    (hm : ∀ m ∈ f.tree.post, m.Behind f.lang (f.preludeOff.getD 0))
    (hk : ∀ k ∈ f.consts, f.preludeOff.getD 0 ≤ k.span.b) :
    ∃ ds back, out = f.src.take (f.preludeOff.getD 0)
      ++ (preludeText f.lang o first ((handleTU o req first f).nextId - first) ++ ds) ++ back ∧
      ∀ m ∈ f.tree.post, ∃ id, ∀ fn ∈ (m.apply f.lang o first id).decls, Occurs fn.render ds := by
  obtain ⟨pts, ds, others, back, h1, -, -, h4, h5, -, h7⟩ := C23_output o req first f out h hloc
  have hnil : others.filter (fun e => decide (e.off < f.preludeOff.getD 0)) = [] := by
    rw [List.filter_eq_nil_iff]
    intro e he
    simp only [decide_eq_true_eq, Nat.not_lt]
    rw [h5] at he
    rcases List.mem_append.mp he with he | he
    · obtain ⟨p, hp, he⟩ := List.mem_flatMap.mp he
      have hpm : p.2 ∈ f.tree.post := by rw [← h1]; exact List.mem_map_of_mem hp
      rcases Mutation.edits_form _ _ _ _ _ _ he with ⟨q, hq, t, rfl | rfl⟩ | ⟨b, t, hs, rfl⟩
      · exact (hm _ hpm).1 q hq
      · exact (hm _ hpm).1 q hq
      · exact (hm _ hpm).2 b t hs
    · obtain ⟨k, hkm, rfl⟩ := List.mem_map.mp he
      exact hk k hkm
  refine ⟨ds.reverse.flatten, back, ?_, ?_⟩
  · rw [h7, hnil]
    simp [rewrite, rewriteFrom_nil]
  · intro m hmm
    rw [← h1] at hmm
    obtain ⟨p, hp, rfl⟩ := List.mem_map.mp hmm
    refine ⟨p.1, fun fn hfn => ?_⟩
    obtain ⟨a, b, hab⟩ := List.append_of_mem ((h4 fn.render).mpr ⟨p, hp, fn, hfn, rfl⟩)
    exact ⟨b.reverse.flatten, a.reverse.flatten, by rw [hab]; simp⟩

namespace SampleMarker
open SampleAst

/-- `void f() {return;}` at this offset. -/
def func (b : Nat) : Node :=
  .decl ⟨.func false none, some ⟨b, b + 18⟩⟩
    [.stmt ⟨.compound, .plain, some ⟨b + 9, b + 18⟩, Sample.info, [], b + 18, false, false, false⟩
      [.stmt ⟨.other, .plain, some ⟨b + 10, b + 16⟩, Sample.info, [], b + 17, false, true, false⟩ []]]

/-- `void __dredd_prelude_start()` at this offset. -/
def marker (b : Nat) : Node := .decl ⟨.func false (some b), some ⟨b, b + 28⟩⟩ []

/-- The placeholder behind the function. -/
def late : ParsedFile :=
  { name := t!"a.cc", lang := Sample.cpp, src := t!"void f() {return;}\nvoid __dredd_prelude_start();\n"
    hasErrors := false, ast := .decl ⟨.tu, none⟩ [func 0, marker 19] }

/-- One placeholder in front of the function and one behind it. -/
def early : ParsedFile :=
  { name := t!"a.cc", lang := Sample.cpp
    src := t!"int i;\nvoid __dredd_prelude_start();\nvoid f() {return;}\nvoid __dredd_prelude_start();\n"
    hasErrors := false, ast := .decl ⟨.tu, none⟩ [marker 7, func 37, marker 56] }

end SampleMarker

/-- What C78 asks for in full fails: with the placeholder behind a mutated function, the check is
called in front of the prelude that defines it. -/
theorem C78_false_before :
    ∃ (o : Options) (f : ParsedFile) (out u v w : Text),
      (handleTU o true 0 (analyse o.optimise f)).output = some out ∧
      (∃ p, Marker f.lang o.optimise f.ast p 19) ∧ (analyse o.optimise f).preludeOff = some 19 ∧
      out = u ++ t!"__dredd_enabled_mutation(0)" ++ v ++ preludeText f.lang o 0 1 ++ w ∧
      u = t!"void f() {if (!" := by
  refine ⟨Sample.opts, SampleMarker.late, _, _, t!") { return; }}\n", t!"void __dredd_prelude_start();\n",
    ?_, ⟨[1], [(SampleMarker.late.ast, 1)], _, [], false, .kid .root rfl, rfl, rfl, ?_, ?_, ?_⟩, ?_, rfl, rfl⟩
  · decide +kernel
  · intro x hx
    simp only [List.mem_singleton] at hx
    subst hx
    simp [CompileTime, SampleMarker.late, Decl.isTU]
  · refine ⟨?_, trivial⟩
    rintro ⟨_, _, h, _⟩
    cases h
  · intro _
    refine ⟨?_, trivial⟩
    rintro ⟨-, _, _, _, h, _⟩
    cases h
  · decide +kernel

/-- Beside C78: two placeholders and a mutated function between them.  The first one is taken, and the
text in front of it is kept. -/
example :
    (analyse Sample.opts.optimise SampleMarker.early).preludeOff = some 7 ∧
    (analyse Sample.opts.optimise SampleMarker.early).tree.post.length = 1 ∧
    (handleTU Sample.opts true 0 (analyse Sample.opts.optimise SampleMarker.early)).output.isSome = true ∧
    (∀ m ∈ (analyse Sample.opts.optimise SampleMarker.early).tree.post,
      m.Behind Sample.cpp ((analyse Sample.opts.optimise SampleMarker.early).preludeOff.getD 0)) ∧
    (analyse Sample.opts.optimise SampleMarker.early).consts.length = 0 := by
  refine ⟨by decide +kernel, by decide +kernel, by decide +kernel, ?_, by decide +kernel⟩
  have h1 : (analyse Sample.opts.optimise SampleMarker.early).preludeOff.getD 0 = 7 := by decide +kernel
  have h2 : (analyse Sample.opts.optimise SampleMarker.early).tree.post =
      [.stmt ⟨⟨47, 53⟩, 54, false, true, false, Sample.info, []⟩] := rfl
  intro m hm
  rw [h2, List.mem_singleton] at hm
  subst hm
  rw [h1]
  refine ⟨fun q hq => ?_, fun b t h => by cases h⟩
  simp [Mutation.bounds] at hq
  omega

end Dredd
