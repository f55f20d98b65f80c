/-
C84: from a mutant id to the code that is shown for it.
-/
import Verif.Spec.InfoRead
import Verif.Props.C02
import Verif.Props.C37
import Verif.Props.C48
import Verif.Props.C55
import Verif.Props.C58Source

namespace Dredd
open Query

/-! ### What should be shown -/

/-- The replacement that is shown for the mutant `id` of a point `m`, whose group is `g` and whose node
has the children `ks`; `e` is what is shown of the point itself: the change that the action of the
mutant stands for, applied to the texts of the operands. -/
def ReplacementShown (src : Text) (ks : List Node) (e : Shown) (id : Nat) :
    Mutation → Group → Option Text → Prop
  | .stmt _, .removeStmt i _, r => i = id ∧ r = none
  | .expr _, .replaceExpr _ is, r => ∃ a, (id, a) ∈ is ∧ r = some ((a.change true).display e)
  | .un x, .replaceUn op _ _ is, r => ∃ a s' e' sp' y, (id, a) ∈ is ∧ op = x.op.proto ∧
      HasChild ks .operand s' e' ∧ s'.range = some sp' ∧ ShownFor src sp' y ∧
      r = some (a.change.display y)
  | .bin x, .replaceBin op _ _ _ is, r => ∃ a sl el pl yl sr er pr yr, (id, a) ∈ is ∧ op = x.op.proto ∧
      HasChild ks .lhs sl el ∧ sl.range = some pl ∧ ShownFor src pl yl ∧
      HasChild ks .rhs sr er ∧ sr.range = some pr ∧ ShownFor src pr yr ∧
      r = some (a.change.display yl yr (if e.singleLine then t!" " else t!"\n"))
  | _, _, _ => False

/-! ### Proof -/

theorem textForRange_blank {src : Text} {a b : Loc} {r : Shown} (h : textForRange src a b = some r) :
    (∀ c ∈ r.blank, c = ' ') ∧ (r.singleLine = true ↔ a.line = b.line) := by
  unfold textForRange at h
  simp only at h
  split at h
  · rename_i hl
    cases hx : (readlines src)[a.line - 1]? with
    | none => simp [hx] at h
    | some l =>
      simp only [hx] at h
      cases h
      simp [hl]
  · rename_i hl
    cases hx : (readlines src)[a.line - 1]? with
    | none => simp [hx] at h
    | some l =>
      cases hy : linesFrom (readlines src) a.line (b.line - 1 - a.line) with
      | none => simp [hx, hy] at h
      | some mid =>
        cases hz : (readlines src)[b.line - 1]? with
        | none => simp [hx, hy, hz] at h
        | some l' =>
          simp only [hx, hy, hz] at h
          cases h
          refine ⟨fun c hc => (List.mem_replicate.mp hc).2, by simp [hl]⟩

theorem lineOf_range (src : Text) (b e : Nat) (h : b ≤ e) :
    lineOf src e = lineOf src b + (textOfRange src b e).count '\n' := by
  have ht : src.take e = src.take b ++ textOfRange src b e := by
    rw [textOfRange]
    obtain ⟨n, rfl⟩ := Nat.le.dest h
    rw [List.drop_take, Nat.add_sub_cancel_left, List.take_add]
  rw [lineOf, ht, List.count_append, lineOf]
  omega

theorem ShownFor.of_info {f : ParsedFile} {lastTok : Nat → Nat} (hi : InfoRead f lastTok)
    (h1 : LastTokensOneLine f lastTok) (hr : '\r' ∉ f.src) {p above s ks sp}
    (hp : Place f.ast p above (.stmt s ks)) (hs : s.range = some sp) :
    ∃ x, textForRange f.src s.info.start s.info.fin = some x ∧ ShownFor f.src sp x := by
  obtain ⟨ha, hb, hc, hd⟩ := hi p above s ks sp hp hs
  have htok := h1 p above s ks sp hp hs
  have he : lastTok sp.e + (sp.e - lastTok sp.e) = sp.e := by omega
  obtain ⟨x, hx, ht⟩ := C36_text_partial f.src sp.b (lastTok sp.e) (sp.e - lastTok sp.e) ha (by omega)
    (by omega) hr (by rw [he]; exact htok)
  rw [← hd] at hx
  obtain ⟨hbl, hsl⟩ := textForRange_blank hx
  rw [he] at ht
  refine ⟨x, hx, ht, hbl, hsl.trans ?_⟩
  have h2 := lineOf_range f.src sp.b (lastTok sp.e) ha
  have h3 := lineOf_range f.src (lastTok sp.e) sp.e (by omega)
  have h4 := lineOf_range f.src sp.b sp.e (by omega)
  have h5 : (textOfRange f.src (lastTok sp.e) sp.e).count '\n' = 0 := List.count_eq_zero.mpr htok
  have h6 : s.info.start.line = lineOf f.src sp.b := by rw [hd]; rfl
  have h7 : s.info.fin.line = lineOf f.src (lastTok sp.e) := by rw [hd]; rfl
  rw [h6, h7]
  show _ ↔ '\n' ∉ textOfRange f.src sp.b sp.e
  rw [← List.count_eq_zero]
  omega

mutual
theorem encodes_group (nodes : List PNode) : (i : Nat) → (t : MTree Group) → Encodes nodes i t →
    ∀ g ∈ t.post, ∃ n ∈ nodes, g ∈ n.groups
  | i, .node gs ks, h, g, hg => by
    obtain ⟨n, hn, h1, h2⟩ := h
    rw [MTree.post, List.mem_append] at hg
    rcases hg with hg | hg
    · exact encodesL_group nodes _ ks h2 g hg
    · exact ⟨n, List.mem_of_getElem? hn, by rw [h1]; exact hg⟩
theorem encodesL_group (nodes : List PNode) : (is : List Nat) → (ts : List (MTree Group)) →
    EncodesL nodes is ts → ∀ g ∈ MTree.postL ts, ∃ n ∈ nodes, g ∈ n.groups
  | [], [], _, g, hg => by simp [MTree.postL] at hg
  | [], _ :: _, h, _, _ => h.elim
  | _ :: _, [], h, _, _ => h.elim
  | c :: cs, t :: ts, h, g, hg => by
    rw [MTree.postL, List.mem_append] at hg
    rcases hg with hg | hg
    · exact encodes_group nodes c t h.1 g hg
    · exact encodesL_group nodes cs ts h.2 g hg
end

/-- Every id belongs to a file. -/
theorem id_file (o : Options) (fs : List SourceFile) (id : Nat) (hid : id < (runTool o true fs).nextId) :
    ∃ pre f suf, fs = pre ++ f :: suf ∧ (∀ g ∈ pre, g.name ≠ f.name) ∧
      (runTool o true pre).nextId ≤ id ∧ id < (runTool o true (pre ++ [f])).nextId := by
  generalize hn : fs.length = n
  induction n generalizing fs with
  | zero =>
    cases fs with
    | nil => simp [runTool] at hid
    | cons f fs => simp at hn
  | succ n ih =>
    rcases List.eq_nil_or_concat fs with rfl | ⟨pre, f, rfl⟩
    · simp at hn
    · by_cases hlt : id < (runTool o true pre).nextId
      · obtain ⟨a, g, b, rfl, h1, h2, h3⟩ := ih pre hlt (by simpa using hn)
        exact ⟨a, g, b ++ [f], by simp, h1, h2, h3⟩
      · refine ⟨pre, f, [], by simp, ?_, by omega, by simpa using hid⟩
        intro g hg hname
        apply hlt
        have hproc : f.name ∈ (runTool o true pre).processed := by
          rw [runTool_processed]
          exact List.mem_map.mpr ⟨g, hg, hname⟩
        have : runTool o true (pre.concat f) = runTool o true pre := by
          rw [List.concat_eq_append, runTool_append]
          exact processFile_skip _ _ _ _ hproc
        rw [this] at hid
        exact hid

/-- The point and the group of an id. -/
theorem id_point (o : Options) (pre suf : List SourceFile) (f : SourceFile) (id : Nat)
    (hnew : ∀ g ∈ pre, g.name ≠ f.name) (h1 : (runTool o true pre).nextId ≤ id)
    (h2 : id < (runTool o true (pre ++ [f])).nextId) :
    ∃ (nodes : List PNode) (edits rest : List Edit) (pts : List (Nat × Mutation)) (q : Nat × Mutation),
      (⟨f.name, nodes⟩ : FileInfo) ∈ (runTool o true (pre ++ f :: suf)).info ∧
      (f.name, rewrite f.src edits) ∈ (runTool o true (pre ++ f :: suf)).written ∧
      edits = pts.flatMap (fun p => (p.2.apply f.lang o (runTool o true pre).nextId p.1).edits) ++ rest ∧
      pts.map (·.2) = f.tree.post ∧ q ∈ pts ∧
      id ∈ (q.2.apply f.lang o (runTool o true pre).nextId q.1).group.ids ∧
      ∃ n ∈ nodes, (q.2.apply f.lang o (runTool o true pre).nextId q.1).group ∈ n.groups := by
  obtain ⟨nodes, tree, edits, rest, pts, -, g1, g2, g3, g4, g5, g6, -, -, g7, -⟩ :=
    C02_block o pre suf f hnew (by omega)
  have hm : id ∈ treeIds tree := by
    rw [g3, List.mem_range'_1]
    omega
  obtain ⟨g, hg, hig⟩ := List.mem_flatMap.mp hm
  obtain ⟨n, hn, hgn⟩ := encodes_group nodes 0 tree g2 g hg
  rw [g7] at hg
  obtain ⟨q, hq, rfl⟩ := List.mem_map.mp (List.mem_filter.mp hg).1
  exact ⟨nodes, edits, rest, pts, q, List.mem_of_getElem? g1, List.mem_of_getElem? g4, g5, g6, hq, hig, n, hn,
    hgn⟩

/-- The range that is recorded for a group. -/
def Group.rangeInfo : Group → RangeInfo
  | .removeStmt _ r | .replaceExpr r _ | .replaceUn _ r _ _ | .replaceBin _ r _ _ _ => r

/-- C84, with the group that the mutation information lists. -/
theorem C84_listed (o : Options) (fs : List ParsedFile) (id : Nat) (pre post : Text)
    (read : Text → Option Text) (lastTok : ParsedFile → Nat → Nat)
    (hid : id < (runTool o true (fs.map (analyse o.optimise))).nextId)
    (hread : ∀ f ∈ fs, read (originalFile pre post f.name) = some f.src)
    (hinfo : ∀ f ∈ fs, InfoRead f (lastTok f)) (hline : ∀ f ∈ fs, LastTokensOneLine f (lastTok f))
    (hr : ∀ f ∈ fs, '\r' ∉ f.src) :
    ∃ f ∈ fs, ∃ (first : Nat) (edits rest : List Edit) (pts : List (Nat × Mutation)), ∃ q ∈ pts,
      (f.name, rewrite f.src edits) ∈ (runTool o true (fs.map (analyse o.optimise))).written ∧
      edits = pts.flatMap (fun p => (p.2.apply f.lang o first p.1).edits) ++ rest ∧
      ∃ p above s ks sp, MutationAt f.lang o.optimise f.ast p q.2 ∧ Place f.ast p above (.stmt s ks) ∧
        s.range = some sp ∧ q.2.span = sp ∧
        ∃ e r, showInfo (infoFile (runTool o true (fs.map (analyse o.optimise))).info) id pre post read =
            some (some ⟨e.blank ++ e.text, r⟩) ∧
          ShownFor f.src sp e ∧
          ReplacementShown f.src ks e id q.2 (q.2.apply f.lang o first q.1).group r ∧
          (q.2.apply f.lang o first q.1).group.rangeInfo = s.info ∧
          ∃ nodes i, Listed o (fs.map (analyse o.optimise)) ⟨f.name, nodes⟩ (q.2.apply f.lang o first q.1).group id i := by
  obtain ⟨a, f0, b, hfs, hnew, h1, h2⟩ := id_file o _ id hid
  rw [hfs]
  obtain ⟨nodes, edits, rest, pts, q, g1, g2, g3, g4, g5, g6, n, hn, hgn⟩ := id_point o a b f0 id hnew h1 h2
  have hf0 : f0 ∈ fs.map (analyse o.optimise) := by rw [hfs]; simp
  obtain ⟨f, hf, rfl⟩ := List.mem_map.mp hf0
  have hq : q.2 ∈ (analyse o.optimise f).tree.post := by
    rw [← g4]; exact List.mem_map.mpr ⟨q, g5, rfl⟩
  have hq : q.2 ∈ (visitTU f.lang o.optimise f.ast).cur.post.map (·.2) := by
    rw [← dropPos_post]; exact hq
  obtain ⟨⟨p, m⟩, hpm, hm⟩ := List.mem_map.mp hq
  have hat : MutationAt f.lang o.optimise f.ast p q.2 := by rw [← hm]; exact hpm
  refine ⟨f, hf, (runTool o true a).nextId, edits, rest, pts, q, g5, g2, g3, p, ?_⟩
  have hrd : read (originalFile pre post (FileInfo.filename ⟨(analyse o.optimise f).name, nodes⟩)) =
    some f.src := hread f hf
  clear hm hpm hq g3 g4 g5
  obtain ⟨qn, qm⟩ := q
  simp only at hat g6 hgn ⊢
  obtain ⟨above, s, ks, hp, hc⟩ := C56 f.lang o.optimise f.ast p qm hat
  have hl : ∀ {g i}, (qm.apply (analyse o.optimise f).lang o (runTool o true a).nextId qn).group = g →
      (id, i) ∈ g.written →
      Listed o (a ++ analyse o.optimise f :: b) ⟨(analyse o.optimise f).name, nodes⟩ g id i :=
    fun hg hw => ⟨g1, ⟨n, hn, by rw [← hg]; exact hgn⟩, hw⟩
  rw [show (analyse o.optimise f).lang = f.lang from rfl] at g6 hl
  rw [Mutation.apply_group] at g6 hl ⊢
  rcases hc with ⟨e, sp, t, hok, ⟨-, x, rfl, -, hsp, hinf, -⟩ | ⟨op, e', t', hu, x, rfl, h3, -, -, -, hsp, hinf, -, s',
      hch, hsub⟩ | ⟨op, sl, el, tl, sr, er, tr, hb, x, rfl, h3, -, -, -, -, hsp, hls, hrs, hinf, -, hli, hri⟩⟩ |
      ⟨sp, -, hrm, x, rfl, hsp, -, -, -, -, hinf, -⟩
  · obtain ⟨y, hy1, hy2⟩ := ShownFor.of_info (hinfo f hf) (hline f hf) (hr f hf) hp hok.range
    obtain ⟨⟨j, act⟩, hj, hjid⟩ := List.mem_map.mp g6
    cases hjid
    rw [← hinf] at hy1
    refine ⟨above, s, ks, sp, hat, hp, hok.range, hsp, y, _, C37_expr o _ _ _ _ j act
      (hl rfl (List.mem_map.mpr ⟨(j, act), hj, rfl⟩)) pre post f.src read hrd y hy1, hy2, ⟨act, hj, rfl⟩, hinf, nodes, _,
      hl rfl (List.mem_map.mpr ⟨(j, act), hj, rfl⟩)⟩
  · obtain ⟨y, hy1, hy2⟩ := ShownFor.of_info (hinfo f hf) (hline f hf) (hr f hf) hp hok.range
    obtain ⟨s'', sp', hch', hsr⟩ := hu.operand
    have he : s'' = s' := by
      have a := childExpr_iff.mpr hch
      have b := childExpr_iff.mpr hch'
      rw [a] at b
      cases b
      rfl
    subst he
    obtain ⟨_, _, _, hpk, -⟩ := hch.place hp
    obtain ⟨z, hz1, hz2⟩ := ShownFor.of_info (hinfo f hf) (hline f hf) (hr f hf) hpk hsr
    obtain ⟨⟨j, act⟩, hj, hjid⟩ := List.mem_map.mp g6
    cases hjid
    rw [← hinf] at hy1
    rw [← hsub] at hz1
    refine ⟨above, s, ks, sp, hat, hp, hok.range, hsp, y, _, C37_unary o _ _ _ _ _ _ j act
      (hl rfl (List.mem_map.mpr ⟨(j, act), hj, rfl⟩)) pre post f.src read hrd y z hy1 hz1, hy2, ⟨act, _, _, sp', z, hj,
      rfl, hch, hsr, hz2, rfl⟩, hinf, nodes, _, hl rfl (List.mem_map.mpr ⟨(j, act), hj, rfl⟩)⟩
  · obtain ⟨y, hy1, hy2⟩ := ShownFor.of_info (hinfo f hf) (hline f hf) (hr f hf) hp hok.range
    obtain ⟨_, _, _, hpl, -⟩ := hb.lhs.place hp
    obtain ⟨_, _, _, hpr, -⟩ := hb.rhs.place hp
    obtain ⟨zl, hl1, hl2⟩ := ShownFor.of_info (hinfo f hf) (hline f hf) (hr f hf) hpl hls.symm
    obtain ⟨zr, hr1, hr2⟩ := ShownFor.of_info (hinfo f hf) (hline f hf) (hr f hf) hpr hrs.symm
    obtain ⟨⟨j, act⟩, hj, hjid⟩ := List.mem_map.mp g6
    cases hjid
    rw [← hinf] at hy1
    rw [← hli] at hl1
    rw [← hri] at hr1
    refine ⟨above, s, ks, sp, hat, hp, hok.range, hsp, y, _, C37_binary o _ _ _ _ _ _ _ j act
      (hl rfl (List.mem_map.mpr ⟨(j, act), hj, rfl⟩)) pre post f.src read hrd y zl zr hy1 hl1 hr1, hy2,
      ⟨act, sl, el, _, zl, sr, er, _, zr, hj, rfl, hb.lhs, hls.symm, hl2, hb.rhs, hrs.symm, hr2, rfl⟩, hinf, nodes, _,
      hl rfl (List.mem_map.mpr ⟨(j, act), hj, rfl⟩)⟩
  · obtain ⟨y, hy1, hy2⟩ := ShownFor.of_info (hinfo f hf) (hline f hf) (hr f hf) hp hrm.range
    rw [← hinf] at hy1
    have hidq : qn = id := by simpa [Mutation.groupAt, Group.ids, eq_comm] using g6
    subst hidq
    exact ⟨above, s, ks, sp, hat, hp, hrm.range, hsp, y, _, C37_stmt o _ _ _ qn
      (hl rfl (List.mem_singleton.mpr rfl)) pre post f.src read hrd y hy1, hy2, ⟨rfl, rfl⟩, hinf, nodes, _, hl rfl (List.mem_singleton.mpr rfl)⟩

/-- C84: for every id that is given to a mutant by a run over parsed files, if the script finds the
original texts of the files, it shows a statement or expression of one of them, with its text, and, for
the change that the mutant makes there, the texts of the operands with the new operator.  The mutant
is one of a point `m` of the tree of this file, which has been applied with the number `q.1` to make the
new text of the file.  Missing: statements and expressions that end with a token of several lines (see
`C84_false`), and texts with carriage returns. -/
theorem C84_partial (o : Options) (fs : List ParsedFile) (id : Nat) (pre post : Text)
    (read : Text → Option Text) (lastTok : ParsedFile → Nat → Nat)
    (hid : id < (runTool o true (fs.map (analyse o.optimise))).nextId)
    (hread : ∀ f ∈ fs, read (originalFile pre post f.name) = some f.src)
    (hinfo : ∀ f ∈ fs, InfoRead f (lastTok f)) (hline : ∀ f ∈ fs, LastTokensOneLine f (lastTok f))
    (hr : ∀ f ∈ fs, '\r' ∉ f.src) :
    ∃ f ∈ fs, ∃ (first : Nat) (edits rest : List Edit) (pts : List (Nat × Mutation)), ∃ q ∈ pts,
      (f.name, rewrite f.src edits) ∈ (runTool o true (fs.map (analyse o.optimise))).written ∧
      edits = pts.flatMap (fun p => (p.2.apply f.lang o first p.1).edits) ++ rest ∧
      ∃ p above s ks sp, MutationAt f.lang o.optimise f.ast p q.2 ∧ Place f.ast p above (.stmt s ks) ∧
        s.range = some sp ∧ q.2.span = sp ∧
        ∃ e r, showInfo (infoFile (runTool o true (fs.map (analyse o.optimise))).info) id pre post read =
            some (some ⟨e.blank ++ e.text, r⟩) ∧
          ShownFor f.src sp e ∧
          ReplacementShown f.src ks e id q.2 (q.2.apply f.lang o first q.1).group r := by
  obtain ⟨f, hf, first, edits, rest, pts, q, hq, h1, h2, p, above, s, ks, sp, h3, h4, h5, h6, e, r, h7, h8, h9, -⟩ :=
    C84_listed o fs id pre post read lastTok hid hread hinfo hline hr
  exact ⟨f, hf, first, edits, rest, pts, q, hq, h1, h2, p, above, s, ks, sp, h3, h4, h5, h6, e, r, h7, h8, h9⟩

/-! ### Examples -/

mutual
/-- The tree with what util.cc records for its statements and expressions. -/
def Node.withInfo (src : Text) (lastTok : Nat → Nat) : Node → Node
  | .decl d ks => .decl d (Node.withInfoL src lastTok ks)
  | .other k ks => .other k (Node.withInfoL src lastTok ks)
  | .stmt s ks =>
    .stmt { s with info := match s.range with
      | some sp => infoForRange src sp.b (lastTok sp.e) (sp.e - lastTok sp.e)
      | none => s.info } (Node.withInfoL src lastTok ks)

def Node.withInfoL (src : Text) (lastTok : Nat → Nat) : List Node → List Node
  | [] => []
  | k :: ks => k.withInfo src lastTok :: Node.withInfoL src lastTok ks
end

namespace SampleSrc
open SampleAst

/-- What is recorded is right. -/
def infoCheck (src : Text) (lastTok : Nat → Nat) (s : AStmt) (sp : Span) : Bool :=
  sp.b ≤ lastTok sp.e && lastTok sp.e < sp.e && sp.e ≤ src.length &&
    s.info == infoForRange src sp.b (lastTok sp.e) (sp.e - lastTok sp.e)

theorem infoRead_of {f : ParsedFile} {lastTok : Nat → Nat}
    (h : f.ast.every (placedCheck (infoCheck f.src lastTok)) = true) : InfoRead f lastTok := by
  intro p above s ks sp hp hr
  have := placed_all h p above s ks sp hp hr
  simpa [infoCheck, and_assoc] using this

theorem oneLine_of {f : ParsedFile} {lastTok : Nat → Nat}
    (h : f.ast.every (placedCheck fun _ sp =>
      !((⟨lastTok sp.e, sp.e⟩ : Span).text f.src).contains '\n') = true) :
    LastTokensOneLine f lastTok := by
  intro p above s ks sp hp hr
  have := placed_all h p above s ks sp hp hr
  simpa using this

/-- The tokens of the sample of C54 are one character long, apart from `++`. -/
def sampleTok (e : Nat) : Nat := if e = 28 then 26 else e - 1

/-- The sample of C54 with what is recorded. -/
def infoParsed : ParsedFile :=
  { parsed with name := t!"m/a.cc", ast := parsed.ast.withInfo parsed.src sampleTok }

/-- The hypotheses of `C84_partial` hold for the sample, which has mutants. -/
example : infoParsed.src = t!"void g(){x = -b; case 1: y++;}\nint a[N];" ∧
    (runTool Sample.opts true ([infoParsed].map (analyse Sample.opts.optimise))).nextId = 33 ∧
    InfoRead infoParsed sampleTok ∧ LastTokensOneLine infoParsed sampleTok ∧ '\r' ∉ infoParsed.src ∧
    originalFile t!"m" t!"o" infoParsed.name = t!"o/a.cc" :=
  ⟨by decide +kernel, by decide +kernel, infoRead_of (by decide +kernel), oneLine_of (by decide +kernel),
    by decide +kernel, by decide +kernel⟩

/-- The file system with the original file. -/
def queriedFile (name : Text) : Option Text := if name = t!"o/a.cc" then some infoParsed.src else none

/-- What is shown for some of the mutants. -/
example : [8, 18, 26, 27].map (fun id : Nat => showInfo (infoFile (runTool Sample.opts true
      ([infoParsed].map (analyse Sample.opts.optimise))).info) id t!"m" t!"o" queriedFile) =
    [some (some ⟨t!"-b", some t!"~ b"⟩), some (some ⟨t!"x = -b", some t!"x /= (-b)"⟩),
     some (some ⟨t!"x = -b", none⟩), some (some ⟨t!"y++", some t!"y --"⟩)] := by
  decide +kernel

/-- A literal that goes over two lines: the statement can be removed. -/
def rawParsed : ParsedFile :=
  { name := t!"m/a.cc", lang := Sample.cpp, src := t!"void g(){p=R\"(a\nb)\";}", hasErrors := false
    ast := (Node.decl ⟨.tu, none⟩ [.decl ⟨.func false none, some ⟨0, 21⟩⟩
      [.stmt ⟨.compound, .plain, some ⟨8, 21⟩, Sample.info, [], 21, false, false, false⟩
        [.stmt ⟨.expr (facts (.binary .assign) none true 9), .plain, some ⟨9, 19⟩, Sample.info, [], 20, false,
            true, false⟩
          [.stmt ⟨.expr (facts .other none true 9), .lhs, some ⟨9, 10⟩, Sample.info, [], 10, false, false,
              false⟩ [],
           .stmt ⟨.expr (facts .other none false 11), .rhs, some ⟨11, 19⟩, Sample.info, [], 19, false, true,
              false⟩ []]]]]).withInfo t!"void g(){p=R\"(a\nb)\";}" fun e => if e = 19 then 11 else e - 1 }

/-- Where its tokens begin. -/
def rawTok (e : Nat) : Nat := if e = 19 then 11 else e - 1

end SampleSrc

/-- C84 is false for a statement that ends with a literal over several lines: what is shown is not the
text of a statement or expression of the file. -/
theorem C84_false :
    ∃ (o : Options) (f : ParsedFile) (id : Nat) (pre post : Text) (read : Text → Option Text)
      (lastTok : Nat → Nat) (t : Text),
      id < (runTool o true ([f].map (analyse o.optimise))).nextId ∧
      read (originalFile pre post f.name) = some f.src ∧ InfoRead f lastTok ∧ '\r' ∉ f.src ∧
      showInfo (infoFile (runTool o true ([f].map (analyse o.optimise))).info) id pre post read =
        some (some ⟨t, none⟩) ∧
      ∀ p above s ks sp e, Place f.ast p above (.stmt s ks) → s.range = some sp → ShownFor f.src sp e →
        t ≠ e.blank ++ e.text := by
  refine ⟨Sample.opts, SampleSrc.rawParsed, 0, t!"m", t!"o", fun _ => some SampleSrc.rawParsed.src,
    SampleSrc.rawTok, t!"p=R\"(a\n", by decide +kernel, rfl, SampleSrc.infoRead_of (by decide +kernel), by decide +kernel,
    by decide +kernel, ?_⟩
  intro p above s ks sp e hp hr he ht
  have := SampleSrc.placed_all (f := SampleSrc.rawParsed) (P := fun _ sp =>
    !(sp.text SampleSrc.rawParsed.src).isSuffixOf t!"p=R\"(a\n") (by decide +kernel) p above s ks sp hp hr
  rw [Bool.not_eq_true', ← Bool.not_eq_true] at this
  refine this (List.isSuffixOf_iff_suffix.mpr ⟨e.blank, ?_⟩)
  rw [ht, he.text]

end Dredd
