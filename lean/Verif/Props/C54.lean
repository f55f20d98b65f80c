/-
C54: from parsed source text to instrumented text.
-/
import Verif.Proofs.SourceVisit
import Verif.Props.C30
import Verif.Props.C48

namespace Dredd

/-- The mutations that are found in parsed source text make up a tree of pieces. -/
theorem source_layout (opt : Bool) (f : ParsedFile) (p : Src)
    (hast : p.nodes = [f.ast]) (hsrc : p.str = f.src) (hl : p.Laid 0) :
    ∃ ls, (analyse opt f).tree.post = Lay.mutsL ls ∧ f.src = Lay.srcL ls ∧
      Lay.constsL 0 ls = p.consts 0 ∧ Lay.FitsL 0 ls ∧ Lay.spaced ls = true ∧ Lay.ApartL ls := by
  obtain ⟨ls, h1, h2, -⟩ := (visited (l := f.lang) (opt := opt) p).trav 0 ⟨[], [], []⟩ f.ast hl hast
    VState.start rfl
  refine ⟨ls, ?_, by rw [h2.src, hsrc], h2.consts, h2.fits, h2.spaced, h2.apart⟩
  have : (analyse opt f).tree.post = (visitTU f.lang opt f.ast).cur.post.map (·.2) := dropPos_post _
  rw [this, visitTU, h1.2]
  rfl

/-- C54: let a file be parsed, the syntax tree being laid out over the text (`p`), and
let the constants that are rewritten be the ones marked in the text.  If it is mutated,
then there is a tree of pieces over the text whose instrumented pieces are, in this order
and in these places, the mutations that the visitor found, and the output is the text
obtained by wrapping every instrumented piece around its instrumented parts and writing
the values in place of the constants, into which the prelude and the definitions are
inserted at the prelude location. -/
theorem C54 (o : Options) (req : Bool) (first : Nat) (f : ParsedFile) (out : Text) (p : Src)
    (h : (handleTU o req first (analyse o.optimise f)).output = some out)
    (hast : p.nodes = [f.ast]) (hsrc : p.str = f.src) (hl : p.Laid 0)
    (hc : (analyse o.optimise f).consts.Perm (p.consts 0))
    (hloc : (analyse o.optimise f).preludeOff.getD 0 ≤ f.src.length) :
    ∃ ls, f.src = Lay.srcL ls ∧ (analyse o.optimise f).tree.post = Lay.mutsL ls ∧
      Lay.FitsL 0 ls ∧ Lay.constsL 0 ls = p.consts 0 ∧
      ∃ front back ds, Lay.outL f.lang o 0 ls = front ++ back ∧
        out = front ++
          (preludeText f.lang o first
            ((handleTU o req first (analyse o.optimise f)).nextId - first) ++ ds) ++ back ∧
        ((analyse o.optimise f).preludeOff.getD 0 = 0 → front = []) := by
  obtain ⟨ls, h1, h2, h3, h4, h5, h6⟩ := source_layout o.optimise f p hast hsrc hl
  refine ⟨ls, h2, h1, h4, h3, ?_⟩
  obtain ⟨front, back, ds, e1, e2, e3, -⟩ := C30_partial o req first (analyse o.optimise f) out ls h h2
    h1 (by rw [h3]; exact hc) h4 h5 h6 hloc
  exact ⟨front, back, ds, e1, e2, e3⟩

namespace SampleSrc
open SampleAst

/-- A statement or expression with parts. -/
def node (kind : StmtKind) (role : Role) (b e ext : Nat) (ps : List Src) : Src :=
  .node (.stmt ⟨kind, role, some ⟨b, e⟩, Sample.info, [], ext, false, true, false⟩) ps

/-- A variable of type `int` that is written. -/
def var (role : Role) (b e : Nat) (t : Text) : Src :=
  node (.expr (facts .other (some .int) true b)) role b e e [.tok t]

/-- A variable of type `int` that is read. -/
def read (role : Role) (b e : Nat) (t : Text) : Src :=
  node (.expr (facts (.cast true false) (some .int) false b)) role b e e [var .operand b e t]

/-- `x = -b` -/
def assign : Src :=
  node (.expr { facts (.binary .assign) (some .int) true 9 with opOff := some 11 }) .plain 9 15 16
    [var .lhs 9 10 t!"x", .tok t!" = ",
     node (.expr { facts (.unary .minus) (some .int) false 13 with opOff := some 13 }) .rhs 13 15 15
      [.tok t!"-", read .operand 14 15 t!"b"]]

/-- `y++` -/
def inc : Src :=
  node (.expr { facts (.unary .postInc) (some .int) false 25 with opOff := some 26 }) .plain 25 28 29
    [var .operand 25 26 t!"y", .tok t!"++"]

/-- `void g(){x = -b; case 1: y++;}` without the `switch`, and an array. -/
def file : Src :=
  .node (.decl ⟨.tu, none⟩)
    [.node (.decl ⟨.func false none, some ⟨0, 30⟩⟩)
      [.tok t!"void g()",
       node .compound .plain 8 30 30
        [.tok t!"{", assign, .tok t!"; ",
         node .case_ .plain 17 28 29
          [.tok t!"case ", .quiet (.stmt ⟨.expr (facts .constant (some .int) false 22), .plain,
              some ⟨22, 23⟩, Sample.info, [], 23, false, false, false⟩ []) [(t!"1", none)],
           .tok t!": ", inc],
         .tok t!";}"]],
     .tok t!"\n",
     .node (.decl ⟨.var ⟨35, true, [⟨1, some ⟨37, 38⟩, some ⟨32, true, 3⟩⟩], [], false, false, false⟩,
        some ⟨31, 39⟩⟩)
      [.tok t!"int ", .tok t!"a",
       .quiet (.other .constArrayType []) [(t!"[", none), (t!"N", some 3), (t!"]", none)]],
     .tok t!";"]

def parsed : ParsedFile :=
  { name := t!"a.cc", lang := Sample.cpp, src := file.str, hasErrors := false
    ast := (file.nodes).headD (.other .other []) }

theorem var_laid (role : Role) (b : Nat) (c : Char) : (var role b (b + 1) [c]).Laid b := by
  simp [var, node, Src.Laid, Src.LaidL, NodePlaced, NodeInfo.isBlock, StmtPlaced, OperatorPlaced, facts,
    Src.strL, Src.str]

theorem read_laid (role : Role) (b : Nat) (c : Char) : (read role b (b + 1) [c]).Laid b := by
  have := var_laid .operand b c
  simp [var, node] at this
  simp [read, var, node, Src.Laid, Src.LaidL, NodePlaced, NodeInfo.isBlock, StmtPlaced,
    OperatorPlaced, facts, Src.strL, Src.str]

theorem assign_laid : assign.Laid 9 := by
  refine ⟨⟨.inr ⟨rfl, by decide, by decide, ?_⟩, by simp⟩, .inl ⟨rfl, rfl, var_laid _ _ _, by simp [Src.Laid],
    rfl, ?_, trivial⟩⟩
  · intro e he
    injection he with he
    subst he
    exact .inl ⟨_, t!" ", t!" ", _, rfl, ⟨_, _, _, rfl, rfl, rfl⟩, ⟨_, _, _, rfl, rfl, rfl⟩, rfl⟩
  · refine ⟨⟨.inr ⟨rfl, by decide, by decide, ?_⟩, by simp⟩, .inl ⟨rfl, by simp [Src.Laid], rfl,
      read_laid _ _ _, trivial⟩⟩
    intro e he
    injection he with he
    subst he
    exact .inl ⟨[], _, rfl, ⟨_, _, _, rfl, rfl, rfl⟩, rfl⟩

theorem inc_laid : inc.Laid 25 := by
  refine ⟨⟨.inr ⟨rfl, by decide, by decide, ?_⟩, by simp⟩, .inl ⟨rfl, rfl, var_laid _ _ _, by simp [Src.Laid],
    trivial⟩⟩
  intro e he
  injection he with he
  subst he
  exact .inl ⟨_, [], rfl, ⟨_, _, _, rfl, rfl, rfl⟩, rfl⟩

theorem file_laid : file.Laid 0 := by
  refine ⟨trivial, .inl ⟨rfl, rfl, ⟨trivial, .inl ⟨rfl, by simp [Src.Laid], rfl, ?_, trivial⟩⟩,
    by simp [Src.Laid], rfl, ⟨trivial, .inl ⟨rfl, by simp [Src.Laid], by simp [Src.Laid], ?_, trivial⟩⟩,
    by simp [Src.Laid], trivial⟩⟩
  · refine ⟨⟨.inr ⟨rfl, by decide, by decide, by simp⟩, by simp⟩, .inr ⟨rfl, by simp [Src.Laid], by decide,
      rfl, rfl, assign_laid, by simp [Src.Laid], by decide, rfl, rfl, ?_, by simp [Src.Laid], by decide, rfl⟩⟩
    refine ⟨⟨.inr ⟨rfl, by decide, by decide, by simp⟩, fun _ => rfl⟩, .inl ⟨rfl, by simp [Src.Laid], ?_,
      by simp [Src.Laid], rfl, inc_laid, trivial⟩⟩
    exact ⟨.inr rfl, by simp⟩
  · exact ⟨.inr rfl, by simp⟩

end SampleSrc

/-- The hypotheses of `C54` hold for a file with an assignment, a labelled statement and an
array. -/
example :
    SampleSrc.parsed.src = t!"void g(){x = -b; case 1: y++;}\nint a[N];" ∧
    (handleTU Sample.opts true 0 (analyse Sample.opts.optimise SampleSrc.parsed)).output.isSome ∧
    SampleSrc.file.nodes = [SampleSrc.parsed.ast] ∧ SampleSrc.file.str = SampleSrc.parsed.src ∧
    SampleSrc.file.Laid 0 ∧
    (analyse Sample.opts.optimise SampleSrc.parsed).consts.Perm (SampleSrc.file.consts 0) ∧
    (analyse Sample.opts.optimise SampleSrc.parsed).preludeOff.getD 0 ≤ SampleSrc.parsed.src.length ∧
    SampleSrc.file.consts 0 = [⟨⟨37, 38⟩, 3⟩] ∧
    (analyse Sample.opts.optimise SampleSrc.parsed).tree.post.length = 8 := by
  refine ⟨by decide, by decide +kernel, rfl, rfl, SampleSrc.file_laid, ?_, by decide, by decide, by decide⟩
  have : (analyse Sample.opts.optimise SampleSrc.parsed).consts = SampleSrc.file.consts 0 := by decide
  rw [this]

end Dredd
