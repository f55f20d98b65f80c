/-
C75: what `--no-mutation-opts` changes for whole files and whole runs.
-/
import Verif.Proofs.OptVisit
import Verif.Props.C25
import Verif.Props.C48
import Verif.Props.C74

namespace Dredd

theorem Thinned.append {α β : Type} {R : α → β → Prop} {as bs as' bs'} (h : Thinned R as bs)
    (h' : Thinned R as' bs') : Thinned R (as ++ as') (bs ++ bs') := by
  induction h with
  | nil => exact h'
  | drop _ ih => exact .drop ih
  | keep hr _ ih => exact .keep hr ih

theorem Thinned.none {α β : Type} {R : α → β → Prop} (bs : List β) : Thinned R [] bs := by
  induction bs with
  | nil => exact .nil
  | cons b bs ih => exact .drop ih

theorem Thinned.length {α β : Type} {R : α → β → Prop} {as bs} (h : Thinned R as bs) :
    as.length ≤ bs.length := by
  induction h with
  | nil => exact Nat.le_refl _
  | drop _ ih => simp only [List.length_cons]; omega
  | keep _ _ ih => simp only [List.length_cons]; omega

theorem Thinned.sublist {α β γ : Type} {R : α → β → Prop} {as bs} (f : α → γ) (g : β → γ)
    (h : Thinned R as bs) (hr : ∀ a b, R a b → f a = g b) : (as.map f).Sublist (bs.map g) := by
  induction h with
  | nil => exact .slnil
  | drop _ ih => exact .cons _ ih
  | keep h1 _ ih =>
    rw [List.map_cons, List.map_cons, hr _ _ h1]
    exact .cons_cons _ ih

theorem sublist_of_map {α β : Type} {f : α → β} (hf : ∀ a b, f a = f b → a = b) (xs ys : List α)
    (h : (xs.map f).Sublist (ys.map f)) : xs.Sublist ys := by
  obtain ⟨l, h1, h2⟩ := List.sublist_map_iff.mp h
  have : xs = l := List.map_inj_right (fun a b h => hf a b h) |>.mp h2
  exact this ▸ h1

/-- The actions offered for a mutation with optimisation are offered without. -/
theorem groupAt_offers (m : Mutation) (l : Lang) (id id' : Nat) :
    (m.groupAt l true id).Offers (m.groupAt l false id') := by
  have h := C26_sublist m l ⟨true, false, false, false⟩ ⟨false, false, false, false⟩ 0 0 rfl rfl
  rw [m.apply_group, m.apply_group] at h
  have hi : ∀ {α : Type} (k k' : Nat) (cs : List (RetE × α)),
      (instsFrom k cs).map (·.2) = (instsFrom k' cs).map (·.2) := by
    intro α k k' cs
    rw [instsFrom_map (fun a => a), instsFrom_map (fun a => a)]
  cases m with
  | bin s =>
    refine .replaceBin ?_
    by_cases hl : (!l.cpp && s.op.isLogical) = true
    · simp [hl]
    · simp only [Mutation.groupAt, hl, Group.acts, if_false, Bool.false_eq_true] at h ⊢
      rw [hi id 0, hi id' 0]
      refine sublist_of_map (f := Act.bin) (fun a b h => by cases h; rfl) _ _ ?_
      rw [List.map_map, List.map_map]
      exact h
  | un s =>
    refine .replaceUn ?_
    simp only [Mutation.groupAt, Group.acts] at h
    rw [hi id 0, hi id' 0]
    refine sublist_of_map (f := Act.un) (fun a b h => by cases h; rfl) _ _ ?_
    rw [List.map_map, List.map_map]
    exact h
  | expr s =>
    refine .replaceExpr ?_
    simp only [Mutation.groupAt, Group.acts] at h
    rw [hi id 0, hi id' 0]
    refine sublist_of_map (f := Act.expr) (fun a b h => by cases h; rfl) _ _ ?_
    rw [List.map_map, List.map_map]
    exact h
  | stmt s => exact .removeStmt

theorem Group.Offers.count {g g' : Group} (h : g.Offers g') : g.ids.length ≤ g'.ids.length := by
  cases h with
  | removeStmt => exact Nat.le_refl _
  | replaceExpr h => simpa [Group.ids] using h.length_le
  | replaceBin h => simpa [Group.ids] using h.length_le
  | replaceUn h => simpa [Group.ids] using h.length_le

theorem count_le (m : Mutation) (l : Lang) : m.count l true ≤ m.count l false := by
  have h := (groupAt_offers m l 0 0).count
  rwa [Mutation.groupAt_ids, Mutation.groupAt_ids, List.length_range', List.length_range'] at h

theorem countAll_le (l : Lang) {ms ms' : List Mutation} (h : ms.Sublist ms') :
    countAll l true ms ≤ countAll l false ms' := by
  induction h with
  | slnil => exact Nat.le_refl _
  | cons m _ ih => simp only [countAll, List.map_cons, List.sum_cons] at *; omega
  | cons_cons m _ ih =>
    have := count_le m l
    simp only [countAll, List.map_cons, List.sum_cons] at *; omega

theorem groupsFrom_thinned (l : Lang) {ms ms' : List Mutation} (h : ms.Sublist ms') (id id' : Nat) :
    Thinned Group.Offers (groupsFrom l true true id ms) (groupsFrom l false true id' ms') := by
  induction h generalizing id id' with
  | slnil => exact .nil
  | cons m _ ih => exact (Thinned.none _).append (ih _ _)
  | cons_cons m _ ih =>
    refine Thinned.append ?_ (ih _ _)
    have := count_le m l
    by_cases h0 : 0 < m.count l true
    · have h1 : 0 < m.count l false := by omega
      simp only [h0, h1, decide_true, Bool.and_self, if_true]
      exact .keep (groupAt_offers m l id id') .nil
    · simp only [h0, decide_false, Bool.and_false, Bool.false_eq_true, if_false]
      exact .none _

/-- C75: the mutations found in a file with optimisation are found without, in the same order. -/
theorem C75_points (f : ParsedFile) (ha : LocationsApart f.ast) :
    (analyse true f).tree.post.Sublist (analyse false f).tree.post := by
  show (MTree.dropPos _).post.Sublist (MTree.dropPos _).post
  rw [dropPos_post, dropPos_post]
  exact (visitTU_sublist f.lang f.ast ha).map _

theorem fileCount_le (f : ParsedFile) (ha : LocationsApart f.ast) :
    fileCount true (analyse true f) ≤ fileCount false (analyse false f) := by
  unfold fileCount
  show (if f.hasErrors then _ else _) ≤ (if f.hasErrors then _ else _)
  split
  · exact Nat.le_refl _
  · exact countAll_le f.lang (C75_points f ha)

/-- The entries of the mutation information for one file, with and without optimisation: the groups, in
the order of application, of the first are among those of the second, and offer nothing else. -/
def FileInfo.Leaner (a b : FileInfo) : Prop :=
  a.filename = b.filename ∧ ∃ t t', Encodes a.nodes 0 t ∧ Encodes b.nodes 0 t' ∧
    Thinned Group.Offers t.post t'.post

theorem flat_leaner (f : ParsedFile) (ha : LocationsApart f.ast) (id id' : Nat) :
    FileInfo.Leaner ⟨f.name, flat 0 (fileTree true id (analyse true f))⟩
      ⟨f.name, flat 0 (fileTree false id' (analyse false f))⟩ := by
  refine ⟨rfl, _, _, flat_encodes_zero _, flat_encodes_zero _, ?_⟩
  rw [fileTree, fileTree, grpTree_post, grpTree_post, MTree.tidyUp_post, MTree.tidyUp_post]
  exact groupsFrom_thinned f.lang (C75_points f ha) id id'

/-- C75: one file.  It has no more mutants with optimisation than without; if it is overwritten with
optimisation, then also without; and the mutation information is thinned out. -/
theorem C75_file (o o' : Options) (ho : o.optimise = true) (ho' : o'.optimise = false) (req : Bool)
    (first first' : Nat) (f : ParsedFile) (ha : LocationsApart f.ast) :
    let a := handleTU o req first (analyse true f)
    let b := handleTU o' req first' (analyse false f)
    a.nextId - first ≤ b.nextId - first' ∧ (a.output.isSome = true → b.output.isSome = true) ∧
    ∀ i ∈ a.info, ∃ j ∈ b.info, i.Leaner j := by
  intro a b
  have h := fileCount_le f ha
  have ea : a = _ := handleTU_eq o req first (analyse true f)
  have eb : b = _ := handleTU_eq o' req first' (analyse false f)
  rw [ho] at ea
  rw [ho'] at eb
  rw [ea, eb]
  by_cases h0 : fileCount true (analyse true f) = 0
  · rw [if_pos h0]
    refine ⟨by dsimp only; omega, nofun, nofun⟩
  · have h1 : fileCount false (analyse false f) ≠ 0 := by omega
    rw [if_neg h0, if_neg h1]
    refine ⟨by dsimp only; omega, fun _ => rfl, ?_⟩
    cases req with
    | false => nofun
    | true =>
      intro i hi
      cases hi
      exact ⟨_, rfl, flat_leaner f ha first first'⟩

/-- The states of two runs over the same files, with and without optimisation. -/
structure RunLeaner (s s' : RunState) : Prop where
  processed : s.processed = s'.processed
  failed : s.failed = s'.failed
  anyError : s.anyError = s'.anyError
  nextId : s.nextId ≤ s'.nextId
  written : (s.written.map (·.1)).Sublist (s'.written.map (·.1))
  info : Thinned FileInfo.Leaner s.info s'.info

theorem analyse_name (opt : Bool) (f : ParsedFile) : (analyse opt f).name = f.name := rfl

theorem analyse_hasErrors (opt : Bool) (f : ParsedFile) : (analyse opt f).hasErrors = f.hasErrors := rfl

theorem runTool_leaner (o o' : Options) (ho : o.optimise = true) (ho' : o'.optimise = false) (req : Bool)
    (fs : List ParsedFile) (ha : ∀ f ∈ fs, LocationsApart f.ast) :
    RunLeaner (runTool o req (fs.map (analyse true))) (runTool o' req (fs.map (analyse false))) := by
  have key : ∀ (fs : List ParsedFile), (∀ f ∈ fs, LocationsApart f.ast) → ∀ s s', RunLeaner s s' →
      RunLeaner ((fs.map (analyse true)).foldl (processFile o req) s)
        ((fs.map (analyse false)).foldl (processFile o' req) s') := by
    intro fs
    induction fs with
    | nil => intro _ s s' h; exact h
    | cons f fs ih =>
      intro ha s s' h
      have haf := ha f (by simp)
      rw [List.map_cons, List.map_cons, List.foldl_cons, List.foldl_cons]
      refine ih (fun g hg => ha g (by simp [hg])) _ _ ?_
      by_cases hm : f.name ∈ s.processed
      · rw [processFile_skip o req s (analyse true f) hm,
          processFile_skip o' req s' (analyse false f) (h.processed ▸ hm)]
        exact h
      · rw [processFile_new o req s (analyse true f) hm,
          processFile_new o' req s' (analyse false f) (h.processed ▸ hm)]
        have hc := fileCount_le f haf
        rw [ho, ho']
        refine ⟨?_, ?_, ?_, ?_, ?_, ?_⟩ <;> dsimp only
        · rw [h.processed, analyse_name, analyse_name]
        · rw [h.failed, analyse_hasErrors, analyse_hasErrors, analyse_name, analyse_name]
        · rw [h.anyError, analyse_hasErrors, analyse_hasErrors]
        · have := h.nextId
          omega
        · rw [List.map_append, List.map_append]
          refine h.written.append ?_
          by_cases h0 : fileCount true (analyse true f) = 0
          · simp [h0]
          · have h1 : fileCount false (analyse false f) ≠ 0 := by omega
            rw [if_pos h0, if_pos h1, List.map_singleton, List.map_singleton, analyse_name, analyse_name]
            exact .refl _
        · refine h.info.append ?_
          by_cases h0 : req = true ∧ fileCount true (analyse true f) ≠ 0
          · have h1 : req = true ∧ fileCount false (analyse false f) ≠ 0 := ⟨h0.1, by omega⟩
            rw [if_pos h0, if_pos h1]
            rw [analyse_name, analyse_name]
            exact .keep (flat_leaner f haf _ _) .nil
          · rw [if_neg h0]
            exact .none _
  exact key fs ha {} {} ⟨rfl, rfl, rfl, Nat.le_refl _, .slnil, .nil⟩

/-- The files that are parsed. -/
def ParsedInput.parsed : List ParsedInput → List ParsedFile
  | [] => []
  | .file f :: is => f :: parsed is
  | _ :: is => parsed is

theorem parsed_files (opt : Bool) (is : List ParsedInput) :
    Input.files (is.map (·.input opt)) = (ParsedInput.parsed is).map (analyse opt) ∧
    Input.anySkipped (is.map (·.input opt)) = Input.anySkipped (is.map (·.input true)) ∧
    Input.anyBroken (is.map (·.input opt)) = Input.anyBroken (is.map (·.input true)) := by
  have kinds : ∀ (f g : ParsedInput → Input), (∀ i n, f i = .skipped n ↔ g i = .skipped n) →
      (∀ i n, f i = .broken n ↔ g i = .broken n) →
      Input.anySkipped (is.map f) = Input.anySkipped (is.map g) ∧
      Input.anyBroken (is.map f) = Input.anyBroken (is.map g) := by
    intro f g h1 h2
    induction is with
    | nil => exact ⟨rfl, rfl⟩
    | cons i is ih =>
      have := h1 i
      have := h2 i
      rw [List.map_cons, List.map_cons]
      cases hf : f i <;> cases hg : g i <;> simp_all [Input.anySkipped, Input.anyBroken]
  refine ⟨?_, kinds _ _ ?_ ?_⟩
  · clear kinds
    induction is with
    | nil => rfl
    | cons i is ih =>
      cases i with
      | skipped n => exact ih
      | broken n => exact ih
      | file f => rw [List.map_cons, ParsedInput.input, Input.files, ih, ParsedInput.parsed, List.map_cons]
  all_goals
    intro i n
    cases i <;> simp [ParsedInput.input]

/-- What `main` does after the run. -/
def ending (asserts req canWrite skipped broken : Bool) (st : RunState) : MainResult :=
  let errors := st.anyError || broken
  let code := if errors then 1 else if skipped then 2 else 0
  if asserts && (if code == 0 then errors || !st.failed.isEmpty else !errors) then
    ⟨none, st.written, [], none⟩
  else
    ⟨some code, st.written, if code == 0 then [] else sortedDecls st.failed,
      if req && canWrite then some (infoFile st.info) else none⟩

theorem mainRun_ending (asserts req canWrite : Bool) (o : Options) (is : List Input) :
    mainRun asserts o req canWrite is = ending asserts req canWrite (Input.anySkipped is)
      (Input.anyBroken is) (runTool o req (Input.files is)) := rfl

theorem ending_leaner (asserts req canWrite skipped broken : Bool) {s s' : RunState} (h : RunLeaner s s') :
    let a := ending asserts req canWrite skipped broken s
    let b := ending asserts req canWrite skipped broken s'
    a.exit = b.exit ∧ a.listed = b.listed ∧ (a.written.map (·.1)).Sublist (b.written.map (·.1)) ∧
    ((a.info = none ∧ b.info = none) ∨
      ∃ xs ys, a.info = some (infoFile xs) ∧ b.info = some (infoFile ys) ∧ Thinned FileInfo.Leaner xs ys) := by
  unfold ending
  dsimp only
  rw [h.anyError, h.failed]
  generalize (if (s'.anyError || broken) = true then 1 else if skipped = true then 2 else 0) = code
  generalize (asserts && if (code == 0) = true then s'.anyError || broken || !s'.failed.isEmpty else
    !(s'.anyError || broken)) = stop
  cases stop with
  | true => exact ⟨rfl, rfl, h.written, .inl ⟨rfl, rfl⟩⟩
  | false =>
    refine ⟨rfl, rfl, h.written, ?_⟩
    cases hi : (req && canWrite) with
    | true => exact .inr ⟨_, _, rfl, rfl, h.info⟩
    | false => exact .inl ⟨rfl, rfl⟩

/-- C75: the whole program with and without `--no-mutation-opts`, for any other options.  The exit status
and the files listed as not mutated are the same.  With optimisation, no other files are overwritten.  The
mutation information has entries for no other files; in the entry for a file, what is left are groups
that are there without optimisation, for the same code, in the same order, and the actions they offer are
offered there, in the same order. -/
theorem C75_run (asserts canWrite : Bool) (fl : Flags) (is : List ParsedInput)
    (ha : ∀ f ∈ ParsedInput.parsed is, LocationsApart f.ast) :
    let a := mainParsed asserts canWrite { fl with noMutationOpts := false } is
    let b := mainParsed asserts canWrite { fl with noMutationOpts := true } is
    a.exit = b.exit ∧ a.listed = b.listed ∧ (a.written.map (·.1)).Sublist (b.written.map (·.1)) ∧
    ((a.info = none ∧ b.info = none) ∨
      ∃ xs ys, a.info = some (infoFile xs) ∧ b.info = some (infoFile ys) ∧ Thinned FileInfo.Leaner xs ys) := by
  have h := runTool_leaner { fl with noMutationOpts := false }.options
    { fl with noMutationOpts := true }.options rfl rfl (!fl.infoFile.isEmpty) (ParsedInput.parsed is) ha
  have p1 := parsed_files true is
  have p2 := parsed_files false is
  have ea : mainParsed asserts canWrite { fl with noMutationOpts := false } is = ending asserts
      (!fl.infoFile.isEmpty) canWrite (Input.anySkipped (is.map (·.input true)))
      (Input.anyBroken (is.map (·.input true)))
      (runTool { fl with noMutationOpts := false }.options (!fl.infoFile.isEmpty)
        ((ParsedInput.parsed is).map (analyse true))) := by
    rw [← p1.1, ← mainRun_ending]
    rfl
  have eb : mainParsed asserts canWrite { fl with noMutationOpts := true } is = ending asserts
      (!fl.infoFile.isEmpty) canWrite (Input.anySkipped (is.map (·.input true)))
      (Input.anyBroken (is.map (·.input true)))
      (runTool { fl with noMutationOpts := true }.options (!fl.infoFile.isEmpty)
        ((ParsedInput.parsed is).map (analyse false))) := by
    rw [← p2.1, ← p2.2.1, ← p2.2.2, ← mainRun_ending]
    rfl
  dsimp only
  rw [ea, eb]
  exact ending_leaner _ _ _ _ _ h

mutual
/-- Where the expressions of a tree begin. -/
def beginsOf : Node → List Nat
  | .stmt s ks => (match s.kind with | .expr e => [e.beginLoc] | _ => []) ++ beginsOfL ks
  | .decl _ ks => beginsOfL ks
  | .other _ ks => beginsOfL ks
def beginsOfL : List Node → List Nat
  | [] => []
  | k :: ks => beginsOf k ++ beginsOfL ks
end

theorem beginsOf_kid {n k : Node} {j x : Nat} (h : n.kids[j]? = some k) (hx : x ∈ beginsOf k) :
    x ∈ beginsOf n := by
  have key : ∀ (ks : List Node) (j : Nat), ks[j]? = some k → x ∈ beginsOfL ks := by
    intro ks
    induction ks with
    | nil => intro j h; simp at h
    | cons k' ks ih =>
      intro j h
      rw [beginsOfL]
      cases j with
      | zero =>
        simp at h
        subst h
        exact List.mem_append_left _ hx
      | succ j => exact List.mem_append_right _ (ih j (by simpa using h))
  have := key _ j h
  cases n
  · exact this
  · exact List.mem_append_right _ this
  · exact this

/-- A condition that is enough: no expression begins where a variable is declared. -/
theorem LocationsApart.of_disjoint {root : Node} (h : ∀ x ∈ beginsOf root, x ∉ locsOf root) :
    LocationsApart root := by
  rintro p above s ks e hp hk - ⟨p', above', d, ks', hp', -, hd⟩
  have h1 : ∀ {p above n}, Place root p above n → ∀ x ∈ beginsOf n, x ∈ beginsOf root := by
    intro p above n hp
    induction hp with
    | root => exact fun _ h => h
    | kid _ hk ih => exact fun x hx => ih x (beginsOf_kid hk hx)
  have h2 : ∀ {p above n}, Place root p above n → ∀ x ∈ locsOf n, x ∈ locsOf root := by
    intro p above n hp
    induction hp with
    | root => exact fun _ h => h
    | kid _ hk ih => exact fun x hx => ih x (locsOf_kid hk hx)
  refine h e.beginLoc (h1 hp _ ?_) (h2 hp' _ ?_)
  · simp [beginsOf, hk]
  · rw [locsOf]
    refine List.mem_append_left _ ?_
    rcases hd with ⟨v, hv, hl⟩ | hv
    · simp [ownLocs, hv, hl]
    · simp [ownLocs, hv]

namespace SampleAst

/-- `void g(){[]{int c = a + b;}; f((a + 0) < b);{}}`: a lambda that is not called, and a call. -/
def lambdaAndCall (loc : Nat) : Node :=
  tu [func false 0 60 [block 8 60 [
    node (.expr { facts (.lambda false) none false 9 with sideEffects := false }) .plain 9 27
      [func false 11 27 [block 11 27 [node .declStmt .plain 12 26
        [.decl ⟨.var ⟨loc, false, [], [], false, false, false⟩, some ⟨12, 25⟩⟩
          [bin .add .plain 20 25 (read .lhs 20 21) (read .rhs 24 25)]]]]],
    node (.expr { facts (.call none false false) (some .int) false 29 with sideEffects := true }) .plain 29 45
      [bin .lt .plain 31 44
        (node (.expr (facts .paren (some .int) false 31)) .lhs 31 38
          [bin .add .plain 32 37 (read .lhs 32 33)
            (node (.expr { facts .other (some .int) false 36 with intVal := some 0 }) .rhs 36 37 [])])
        (read .rhs 41 42)],
    block 47 49 []]]]

/-- The file with it. -/
abbrev lambdaFile (loc : Nat) : ParsedFile := ⟨t!"a.cc", Sample.cpp, t!"", false, lambdaAndCall loc⟩

end SampleAst

/-- The hypothesis holds for a file where optimisation makes a difference in several ways, and is needed:
it fails if the variable of the lambda is said to be where an operand of the call is. -/
example :
    LocationsApart (SampleAst.lambdaFile 16).ast ∧
    (analyse true (SampleAst.lambdaFile 16)).tree.post.length = 10 ∧ (analyse false (SampleAst.lambdaFile 16)).tree.post.length = 20 ∧
    ¬ (analyse true (SampleAst.lambdaFile 41)).tree.post.Sublist (analyse false (SampleAst.lambdaFile 41)).tree.post := by
  refine ⟨.of_disjoint (by decide +kernel), by decide +kernel, by decide +kernel, fun h => ?_⟩
  have h1 : ((analyse true (SampleAst.lambdaFile 41)).tree.post.map (·.span.b)).contains 41 = true := by decide +kernel
  have h2 : ((analyse false (SampleAst.lambdaFile 41)).tree.post.map (·.span.b)).contains 41 = false := by decide +kernel
  rw [List.contains_iff_mem] at h1
  rw [← Bool.not_eq_true, List.contains_iff_mem] at h2
  exact h2 ((h.map _).subset h1)

end Dredd
