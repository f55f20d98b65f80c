/-
C85: what the query script prints, and its exit status.
-/
import Verif.Model.QueryMain
import Verif.Spec.QuerySays
import Verif.Props.C84

namespace Dredd
open Query

theorem lineColumn_of (src : Text) (n : Nat) : LineColumn src n (lineOf src n) (columnOf src n) := by
  refine ⟨((src.take n).reverse.dropWhile (· != '\n')).reverse, ((src.take n).reverse.takeWhile (· != '\n')).reverse,
    ?_, ?_, ?_, ?_, ?_⟩
  · rw [← List.reverse_append, List.takeWhile_append_dropWhile, List.reverse_reverse]
  · cases h : (src.take n).reverse.dropWhile (· != '\n') with
    | nil => exact .inl rfl
    | cons c cs =>
      right
      have := List.head?_dropWhile_not (· != '\n') (src.take n).reverse
      rw [h] at this
      simp only [List.head?_cons] at this
      simp only [List.getLast?_reverse, List.head?_cons]
      simpa using this
  · intro h
    have := List.mem_reverse.mp h
    simpa using List.all_eq_true.mp List.all_takeWhile _ this
  · have h0 : ((src.take n).reverse.takeWhile (· != '\n')).count '\n' = 0 := by
      rw [List.count_eq_zero]
      intro h
      simpa using List.all_eq_true.mp List.all_takeWhile _ h
    have h1 : (src.take n).reverse.count '\n' = _ :=
      congrArg (List.count '\n') (List.takeWhile_append_dropWhile (p := (· != '\n')) (l := (src.take n).reverse)).symm
    rw [List.count_append, h0, List.count_reverse] at h1
    rw [lineOf, h1, List.count_reverse]
    omega
  · rw [List.length_reverse, columnOf]

theorem InfoRead.fin {f : ParsedFile} {lastTok : Nat → Nat} (hi : InfoRead f lastTok)
    (h1 : LastTokensOneLine f lastTok) {p above s ks sp} (hp : Place f.ast p above (.stmt s ks))
    (hs : s.range = some sp) :
    s.info.start = ⟨lineOf f.src sp.b, columnOf f.src sp.b⟩ ∧ s.info.fin = ⟨lineOf f.src sp.e, columnOf f.src sp.e⟩ := by
  obtain ⟨ha, hb, hc, hd⟩ := hi p above s ks sp hp hs
  have htok := h1 p above s ks sp hp hs
  have he : lastTok sp.e + (sp.e - lastTok sp.e) = sp.e := by omega
  obtain ⟨h2, h3⟩ := after_token f.src (lastTok sp.e) (sp.e - lastTok sp.e) (by rw [he]; exact htok) (by omega)
  rw [he] at h2 h3
  rw [hd]
  exact ⟨rfl, by rw [h2, h3]; rfl⟩

theorem report_of_showInfo {o : Options} {fs : List SourceFile} {f : FileInfo} {g : Group} {id : Nat}
    {i : Option Json} (h : Listed o fs f g id i) {pre post src : Text} {read : Text → Option Text} {r : Report}
    (hr : read (originalFile pre post f.filename) = some src)
    (hs : showInfo (infoFile (runTool o true fs).info) id pre post read = some (some r)) :
    report src (expectedInfo f g i) = some r := by
  rw [showInfo_listed h pre post src read hr] at hs
  cases hc : report src (expectedInfo f g i) with
  | none => rw [hc] at hs; cases hs
  | some r' => rw [hc] at hs; cases hs; rfl

/-- The message for a group. -/
theorem printReport_eq (f : FileInfo) (g : Group) (i : Option Json) (name : Text) (src : Text) (ks : List Node)
    (e : Shown) (id : Nat) (m : Mutation) (r : Option Text) (hm : ReplacementShown src ks e id m g r) (orig : Text) :
    printReport name (expectedInfo f g i) ⟨orig, r⟩ = some (m.message name g.rangeInfo.start.line
      g.rangeInfo.start.column g.rangeInfo.fin.line g.rangeInfo.fin.column orig r) := by
  cases m with
  | stmt x =>
    cases g with
    | removeStmt j ri =>
      obtain ⟨-, rfl⟩ := hm
      have h1 : describedRange (expectedInfo f (.removeStmt j ri) i) t!"removeStmt" t!"start" t!"end" =
        some (ri.start, ri.fin) := rfl
      have hk : (expectedInfo f (.removeStmt j ri) i).kind = t!"removeStmt" := rfl
      rw [printReport, hk, if_neg (by decide : t!"removeStmt" ≠ t!"replaceExpr"), if_neg (by decide : t!"removeStmt" ≠ t!"replaceUnaryOperator"),
        if_neg (by decide : t!"removeStmt" ≠ t!"replaceBinaryOperator"), h1]
      simp [Mutation.message, Mutation.title, Mutation.label, printOriginal, rangeDescription, Group.rangeInfo]
    | replaceExpr _ _ => exact hm.elim
    | replaceUn _ _ _ _ => exact hm.elim
    | replaceBin _ _ _ _ _ => exact hm.elim
  | expr x =>
    cases g with
    | replaceExpr ri is =>
      obtain ⟨a, -, rfl⟩ := hm
      have h1 : describedRange (expectedInfo f (.replaceExpr ri is) i) t!"replaceExpr" t!"start" t!"end" =
        some (ri.start, ri.fin) := rfl
      have hk : (expectedInfo f (.replaceExpr ri is) i).kind = t!"replaceExpr" := rfl
      rw [printReport, hk, if_pos rfl, h1]
      simp [Mutation.message, Mutation.title, Mutation.label, printOriginal, rangeDescription, Group.rangeInfo, printReplacement]
    | removeStmt _ _ => exact hm.elim
    | replaceUn _ _ _ _ => exact hm.elim
    | replaceBin _ _ _ _ _ => exact hm.elim
  | un x =>
    cases g with
    | replaceUn op ri si is =>
      obtain ⟨a, _, _, _, _, -, -, -, -, -, rfl⟩ := hm
      have h1 : describedRange (expectedInfo f (.replaceUn op ri si is) i) t!"replaceUnaryOperator" t!"exprStart" t!"exprEnd" =
        some (ri.start, ri.fin) := rfl
      have hk : (expectedInfo f (.replaceUn op ri si is) i).kind = t!"replaceUnaryOperator" := rfl
      rw [printReport, hk, if_neg (by decide : t!"replaceUnaryOperator" ≠ t!"replaceExpr"), if_pos rfl, h1]
      simp [Mutation.message, Mutation.title, Mutation.label, printOriginal, rangeDescription, Group.rangeInfo, printReplacement]
    | removeStmt _ _ => exact hm.elim
    | replaceExpr _ _ => exact hm.elim
    | replaceBin _ _ _ _ _ => exact hm.elim
  | bin x =>
    cases g with
    | replaceBin op ri li si is =>
      obtain ⟨a, _, _, _, _, _, _, _, _, -, -, -, -, -, -, -, -, rfl⟩ := hm
      have h1 : describedRange (expectedInfo f (.replaceBin op ri li si is) i) t!"replaceBinaryOperator" t!"exprStart" t!"exprEnd" =
        some (ri.start, ri.fin) := rfl
      have hk : (expectedInfo f (.replaceBin op ri li si is) i).kind = t!"replaceBinaryOperator" := rfl
      rw [printReport, hk, if_neg (by decide : t!"replaceBinaryOperator" ≠ t!"replaceExpr"), if_neg (by decide : t!"replaceBinaryOperator" ≠ t!"replaceUnaryOperator"),
        if_pos rfl, h1]
      simp [Mutation.message, Mutation.title, Mutation.label, printOriginal, rangeDescription, Group.rangeInfo, printReplacement]
    | removeStmt _ _ => exact hm.elim
    | replaceExpr _ _ => exact hm.elim
    | replaceUn _ _ _ _ => exact hm.elim

/-- C85, `--largest-mutant-id`: whatever else is asked for, the largest id is printed, or -1 if there are no
mutants. -/
theorem C85_largest (o : Options) (fs : List SourceFile) (a : Args) (read : Text → Option Text)
    (h : a.largest = true) :
    script (infoFile (runTool o true fs).info) a read =
      some (intDec ((runTool o true fs).nextId - 1) ++ t!"\n", 0) := by
  have h1 := C35_largest o fs
  rw [largest] at h1
  cases hd : mapping (infoFile (runTool o true fs).info) with
  | none => rw [hd] at h1; cases h1
  | some d =>
    rw [hd] at h1
    have h2 : maxOr (d.map (·.1)) = _ := Option.some.inj h1
    rw [script, hd, Option.bind_some, if_pos h, h2]

/-- C85: without an action, without the prefixes, and for ids that no mutant has, there is only a message,
and the exit status is 1. -/
theorem C85_error (o : Options) (fs : List SourceFile) (a : Args) (read : Text → Option Text)
    (h : a.largest = false) :
    (a.shown = none → script (infoFile (runTool o true fs).info) a read = some (t!"No action specified.\n", 1)) ∧
    (∀ id, a.shown = some id → a.prefixes = none →
      script (infoFile (runTool o true fs).info) a read = some (missingPrefixes, 1)) ∧
    ∀ id, a.shown = some id → a.prefixes ≠ none → (id < 0 ∨ (runTool o true fs).nextId ≤ id) →
      script (infoFile (runTool o true fs).info) a read =
        some (t!"Unknown mutant id: " ++ intDec id ++ t!"\n", 1) := by
  have h0 : ¬ a.largest = true := by simp [h]
  refine ⟨fun hs => ?_, fun id hs hp => ?_, fun id hs hp hid => ?_⟩
  · obtain ⟨d, hd, -⟩ := C35_unknown o fs (-1) (fun ⟨i, _, h⟩ => by omega)
    rw [script, hd, Option.bind_some, if_neg h0, hs]
  · obtain ⟨d, hd, -⟩ := C35_unknown o fs (-1) (fun ⟨i, _, h⟩ => by omega)
    rw [script, hd, Option.bind_some, if_neg h0, hs]
    simp only [showInfoForMutant, hp]
  · obtain ⟨d, hd, hg⟩ := C35_unknown o fs id (fun ⟨i, _, h⟩ => by omega)
    obtain ⟨⟨pre, post⟩, hpp⟩ := Option.ne_none_iff_exists'.mp hp
    rw [script, hd, Option.bind_some, if_neg h0, hs]
    simp only [showInfoForMutant, hpp, hg]

/-- C85: for every mutant of a run, if the mutated files have been at `pre` and the original ones are at `post`,
the script describes the mutation, with the file, lines and columns of the statement or expression, and
exits with status 0.  Missing: as in `C84_partial`. -/
theorem C85_partial (o : Options) (fs : List ParsedFile) (id : Nat) (pre post : Text)
    (read : Text → Option Text) (lastTok : ParsedFile → Nat → Nat) (rest : ParsedFile → Text)
    (hid : id < (runTool o true (fs.map (analyse o.optimise))).nextId)
    (hpre : pathStr pre = pre) (hpost : pathStr post = post)
    (hname : ∀ f ∈ fs, f.name = pre ++ t!"/" ++ rest f)
    (hread : ∀ f ∈ fs, read (post ++ t!"/" ++ rest f) = some f.src)
    (hinfo : ∀ f ∈ fs, InfoRead f (lastTok f)) (hline : ∀ f ∈ fs, LastTokensOneLine f (lastTok f))
    (hr : ∀ f ∈ fs, '\r' ∉ f.src) :
    ∃ f ∈ fs, ∃ (first : Nat) (edits others : List Edit) (pts : List (Nat × Mutation)), ∃ q ∈ pts,
      (f.name, rewrite f.src edits) ∈ (runTool o true (fs.map (analyse o.optimise))).written ∧
      edits = pts.flatMap (fun p => (p.2.apply f.lang o first p.1).edits) ++ others ∧
      ∃ p above s ks sp, MutationAt f.lang o.optimise f.ast p q.2 ∧ Place f.ast p above (.stmt s ks) ∧
        s.range = some sp ∧ q.2.span = sp ∧
        ∃ e r l c l' c', ShownFor f.src sp e ∧
          ReplacementShown f.src ks e id q.2 (q.2.apply f.lang o first q.1).group r ∧
          LineColumn f.src sp.b l c ∧ LineColumn f.src sp.e l' c' ∧
          script (infoFile (runTool o true (fs.map (analyse o.optimise))).info) ⟨some (pre, post), false, some id⟩ read =
            some (q.2.message (rest f) l c l' c' (e.blank ++ e.text) r, 0) := by
  have hor : ∀ f ∈ fs, originalFile pre post f.name = post ++ t!"/" ++ rest f := fun f hf => by
    rw [hname f hf]
    exact C38_partial pre post (rest f) hpre hpost
  obtain ⟨f, hf, first, edits, others, pts, q, hq, h1, h2, p, above, s, ks, sp, h3, h4, h5, h6, e, r, h7, h8, h9, h10,
    nodes, i, h11⟩ := C84_listed o fs id pre post read lastTok hid (fun f hf => by rw [hor f hf]; exact hread f hf)
      hinfo hline hr
  obtain ⟨hst, hfi⟩ := (hinfo f hf).fin (hline f hf) h4 h5
  refine ⟨f, hf, first, edits, others, pts, q, hq, h1, h2, p, above, s, ks, sp, h3, h4, h5, h6, e, r, _, _, _, _, h8,
    h9, lineColumn_of f.src sp.b, lineColumn_of f.src sp.e, ?_⟩
  have hrd : read (originalFile pre post f.name) = some f.src := by rw [hor f hf]; exact hread f hf
  have hrep := report_of_showInfo h11 (src := f.src) hrd h7
  obtain ⟨n, hn, hg⟩ := h11.node
  obtain ⟨d, hd, hget⟩ := C35_found o _ _ n _ id i h11.file hn hg h11.inst
  have hw : withoutPrefix pre f.name = rest f := by
    rw [withoutPrefix, hpre, hname f hf, List.append_assoc, List.drop_left' rfl]
    rfl
  rw [script, hd, Option.bind_some, if_neg Bool.false_ne_true]
  simp only [showInfoForMutant, hget]
  have hfile : ((expectedInfo ⟨f.name, nodes⟩ (q.2.apply f.lang o first q.1).group i).fileInfo.get t!"filename").bind
    Json.text = some f.name := rfl
  rw [hfile, Option.bind_some, hrd, Option.bind_some, hrep, Option.bind_some, hw,
    printReport_eq _ _ i (rest f) f.src ks e id q.2 r h9, h10, hst, hfi]
  rfl

/-- The hypotheses of `C85_partial` hold for the sample of C84 with prefixes `m` and `o`, besides those shown
there. -/
example : 18 < (runTool Sample.opts true ([SampleSrc.infoParsed].map (analyse Sample.opts.optimise))).nextId ∧
    pathStr t!"m" = t!"m" ∧ pathStr t!"o" = t!"o" ∧ SampleSrc.infoParsed.name = t!"m" ++ t!"/" ++ t!"a.cc" ∧
    SampleSrc.queriedFile (t!"o" ++ t!"/" ++ t!"a.cc") = some SampleSrc.infoParsed.src := by
  decide +kernel

/-- What is printed for it. -/
example : let j := infoFile (runTool Sample.opts true ([SampleSrc.infoParsed].map (analyse Sample.opts.optimise))).info
    script j ⟨some (t!"m", t!"o"), false, some 18⟩ SampleSrc.queriedFile = some (t!"Replace binary operator expression " ++
      t!"at a.cc, 1:10--1:16\n\nOriginal binary operator expression:\n\nx = -b\n\nReplacement expression:\n\n" ++
      t!"x /= (-b)\n\n", 0) ∧
    script j ⟨some (t!"m", t!"o"), false, some 33⟩ SampleSrc.queriedFile = some (t!"Unknown mutant id: 33\n", 1) ∧
    script j ⟨none, true, none⟩ SampleSrc.queriedFile = some (t!"32\n", 0) := by
  decide +kernel

end Dredd
