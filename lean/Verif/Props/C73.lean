/-
C73: sources that cannot be written.
-/
import Verif.Model.Write
import Verif.Props.C70
import Verif.Props.C06

namespace Dredd

variable {o : Options} {req : Bool} {w : Text → Bool}

theorem processFileW_ok (st : RunState) (f : SourceFile) (h : writeFails o req w st f = false) :
    processFileW o req w st f = processFile o req st f := by
  unfold processFileW processFile
  split
  · rfl
  · rename_i hc
    rw [Bool.not_eq_true] at hc
    have : ((handleTU o req st.nextId f).output.isSome && !w f.name) = false := by
      rw [writeFails, hc] at h
      exact h
    simp [this]

theorem runToolW_ok (asserts : Bool) (st : RunState) (fs : List SourceFile)
    (h : ∀ f ∈ fs, w f.name = true) :
    runToolW asserts o req w st fs = (fs.foldl (processFile o req) st, false) := by
  induction fs generalizing st with
  | nil => rfl
  | cons f fs ih =>
    have hw : writeFails o req w st f = false := by simp [writeFails, h f (by simp)]
    rw [runToolW, hw, Bool.and_false, if_neg (by simp), processFileW_ok st f hw]
    exact ih _ fun g hg => h g (by simp [hg])

/-- C73: if all files can be written, the run is the one of C70. -/
theorem C73_writable (asserts : Bool) (o : Options) (req canWrite : Bool) (w : Text → Bool)
    (is : List Input) (h : ∀ f ∈ Input.parsed is, w f.name = true) :
    mainRunW asserts o req canWrite w is = mainRun asserts o req canWrite is := by
  unfold mainRunW mainRun
  rw [runToolW_ok asserts {} _ (by rw [Input.files_eq]; exact h)]
  rfl

/-- What the two runs have in common, where only `st` could write everything. -/
structure WriteInv (w : Text → Bool) (st' st : RunState) : Prop where
  nextId : st'.nextId = st.nextId
  info : st'.info = st.info
  processed : st'.processed = st.processed
  written : st'.written = st.written.filter fun x => w x.1
  failed : ∀ n, n ∈ st'.failed ↔ n ∈ st.failed ∨ ∃ t, (n, t) ∈ st.written ∧ w n = false
  anyError : st'.anyError = (st.anyError || st.written.any fun x => !w x.1)

theorem WriteInv.step {st' st : RunState} (h : WriteInv w st' st) (f : SourceFile) :
    WriteInv w (processFileW o req w st' f) (processFile o req st f) := by
  unfold processFileW processFile
  rw [h.processed, h.nextId]
  split
  · exact h
  · generalize handleTU o req st.nextId f = r
    obtain ⟨id, out, inf⟩ := r
    cases out with
    | none =>
      refine ⟨rfl, by simp [h.info], rfl, by simp [h.written], fun n => ?_, ?_⟩
      · have := h.failed n
        cases f.hasErrors
        · simpa using this
        · simp only [Option.isSome, Bool.false_and, Bool.or_false, if_true, List.mem_append, this,
            List.mem_singleton, Option.map_none, Option.toList_none, List.append_nil]
          exact ⟨fun h => by rcases h with (h | h) | h <;> simp [h],
            fun h => by rcases h with (h | h) | h <;> simp [h]⟩
      · simp only [h.anyError, Option.isSome, Bool.false_and, Bool.or_false, Option.map_none,
          Option.toList_none, List.append_nil]
        cases st.anyError <;> cases f.hasErrors <;> simp
    | some t =>
      cases hw : w f.name with
      | true =>
        refine ⟨rfl, by simp [h.info], rfl, by simp [h.written, hw], fun n => ?_, ?_⟩
        · have := h.failed n
          have e : (∃ t', (n, t') ∈ st.written ++ [(f.name, t)] ∧ w n = false) ↔
              ∃ t', (n, t') ∈ st.written ∧ w n = false := by
            constructor
            · rintro ⟨t', h1, h2⟩
              rcases List.mem_append.1 h1 with h1 | h1
              · exact ⟨t', h1, h2⟩
              · cases List.mem_singleton.1 h1
                rw [hw] at h2
                cases h2
            · rintro ⟨t', h1, h2⟩
              exact ⟨t', by simp [h1], h2⟩
          simp only [Option.map_some, Option.toList_some, e, Option.isSome, Bool.not_true,
            Bool.and_false, Bool.or_false]
          cases f.hasErrors
          · simpa using this
          · simp only [if_true, List.mem_append, this, List.mem_singleton]
            exact ⟨fun h => by rcases h with (h | h) | h <;> simp [h],
              fun h => by rcases h with (h | h) | h <;> simp [h]⟩
        · simp only [h.anyError, Option.isSome, Bool.not_true, Bool.and_false, Bool.or_false,
            Option.map_some, Option.toList_some, List.any_append, List.any_cons, List.any_nil, hw]
          cases st.anyError <;> cases f.hasErrors <;> simp
      | false =>
        refine ⟨rfl, by simp [h.info], rfl, by simp [h.written, hw], fun n => ?_, ?_⟩
        · have := h.failed n
          have e : (∃ t', (n, t') ∈ st.written ++ [(f.name, t)] ∧ w n = false) ↔
              (∃ t', (n, t') ∈ st.written ∧ w n = false) ∨ n = f.name := by
            constructor
            · rintro ⟨t', h1, h2⟩
              rcases List.mem_append.1 h1 with h1 | h1
              · exact .inl ⟨t', h1, h2⟩
              · cases List.mem_singleton.1 h1
                exact .inr rfl
            · rintro (⟨t', h1, h2⟩ | rfl)
              · exact ⟨t', by simp [h1], h2⟩
              · exact ⟨t, by simp, hw⟩
          simp only [Option.map_some, Option.toList_some, Option.isSome, Bool.not_false,
            Bool.and_true, Bool.or_true, if_true]
          rw [List.mem_append, List.mem_singleton, this, e]
          generalize (∃ t', (n, t') ∈ st.written ∧ w n = false) = X
          cases f.hasErrors
          · simp only [Bool.false_eq_true, if_false, or_assoc]
          · simp only [if_true, List.mem_append, List.mem_singleton]
            constructor
            · rintro ((h | h) | h) <;> simp [h]
            · rintro ((h | h) | h | h) <;> simp [h]
        · simp [hw]

theorem runToolW_inv (st' st : RunState) (fs : List SourceFile) (h : WriteInv w st' st) :
    WriteInv w (runToolW false o req w st' fs).1 (fs.foldl (processFile o req) st) ∧
    (runToolW false o req w st' fs).2 = false := by
  induction fs generalizing st' st with
  | nil => exact ⟨h, rfl⟩
  | cons f fs ih => exact ih _ _ (h.step f)

/-- C73: built without assertions, with files that cannot be written,
* the files that can be written get the contents that they get if all can be written;
* so does the mutation information;
* the exit status is 1 exactly if there were errors or a mutated file could not be written;
* the files listed are those with errors and the mutated files that could not be written. -/
theorem C73_release (o : Options) (req canWrite : Bool) (w : Text → Bool) (is : List Input) :
    let r := mainRunW false o req canWrite w is
    let st := runTool o req (Input.parsed is)
    r.written = st.written.filter (fun x => w x.1) ∧
    r.info = (if req && canWrite then some (infoFile st.info) else none) ∧
    (r.exit = some 1 ↔ Input.SomeError is ∨ ∃ x ∈ st.written, w x.1 = false) ∧
    (r.exit = some 0 ↔ (¬ Input.SomeError is ∧ ∀ n, .skipped n ∉ is) ∧ ∀ x ∈ st.written, w x.1 = true) ∧
    StrictlySorted r.listed ∧
    (∀ n, n ∈ r.listed ↔ (∃ f ∈ firstOcc [] (Input.parsed is), f.hasErrors = true ∧ f.name = n) ∨
      ∃ t, (n, t) ∈ st.written ∧ w n = false) := by
  intro r st
  obtain ⟨hI, hs⟩ := runToolW_inv (o := o) (req := req) (w := w) {} {} (Input.files is)
    ⟨rfl, rfl, rfl, rfl, by simp, rfl⟩
  rw [Input.files_eq] at hI hs
  change WriteInv w _ st at hI
  generalize hst : (runToolW false o req w {} (Input.parsed is)).1 = st' at hI
  have e : r = ⟨some (toolCode st' is), st'.written,
      if toolCode st' is == 0 then [] else sortedDecls st'.failed,
      if req && canWrite then some (infoFile st'.info) else none⟩ := by
    simp only [r, mainRunW, Input.files_eq, hs, hst, Bool.false_and, Bool.false_eq_true, if_false]
  have herr : (st'.anyError || Input.anyBroken is) = true ↔
      Input.SomeError is ∨ ∃ x ∈ st.written, w x.1 = false := by
    rw [hI.anyError, ← errors_iff o req is]
    simp only [Bool.or_eq_true, List.any_eq_true, Bool.not_eq_true', st]
    exact ⟨fun h => by rcases h with (h | h) | h <;> simp [h],
      fun h => by rcases h with (h | h) | h <;> simp [h]⟩
  have hfail : st'.anyError = false → st'.failed = [] := by
    intro h0
    rw [hI.anyError, Bool.or_eq_false_iff] at h0
    have h1 := failed_nil_of_no_error o req (Input.parsed is) h0.1
    apply List.eq_nil_iff_forall_not_mem.2
    intro n hn
    rcases (hI.failed n).1 hn with h2 | ⟨t, h2, h3⟩
    · change n ∈ (runTool o req (Input.parsed is)).failed at h2
      rw [h1] at h2
      cases h2
    · have := List.any_eq_false.1 h0.2 _ h2
      simp [h3] at this
  have hl : r.listed = sortedDecls st'.failed := by
    rw [e]
    dsimp only
    split
    · rename_i h0
      rw [hfail]
      · rfl
      · cases hh : st'.anyError
        · rfl
        · simp [toolCode, hh] at h0
    · rfl
  refine ⟨by rw [e]; exact hI.written, by rw [e, ← hI.info], ?_, ?_, ?_, ?_⟩
  · rw [← herr, e]
    dsimp only [toolCode]
    generalize (st'.anyError || Input.anyBroken is) = a
    cases a
    · simp; split <;> simp
    · simp
  · have h2 := Input.anySkipped_iff is
    have h3 : (∀ n, .skipped n ∉ is) ↔ Input.anySkipped is = false := by
      rw [← Bool.not_eq_true, h2]
      simp
    have h4 : (¬ Input.SomeError is ∧ ∀ x ∈ st.written, w x.1 = true) ↔
        (st'.anyError || Input.anyBroken is) = false := by
      rw [← Bool.not_eq_true, herr]
      constructor
      · rintro ⟨h1, h2⟩ (h | ⟨x, h, h'⟩)
        · exact h1 h
        · rw [h2 x h] at h'
          cases h'
      · intro h
        refine ⟨fun h' => h (.inl h'), fun x hx => ?_⟩
        cases hh : w x.1
        · exact absurd (.inr ⟨x, hx, hh⟩) h
        · rfl
    have h5 : ((¬ Input.SomeError is ∧ ∀ n, .skipped n ∉ is) ∧ ∀ x ∈ st.written, w x.1 = true) ↔
        (st'.anyError || Input.anyBroken is) = false ∧ Input.anySkipped is = false := by
      rw [← h4, ← h3]
      exact ⟨fun h => ⟨⟨h.1.1, h.2⟩, h.1.2⟩, fun h => ⟨⟨h.1.1, h.2⟩, h.1.2⟩⟩
    rw [h5, e]
    dsimp only [toolCode]
    generalize (st'.anyError || Input.anyBroken is) = a
    cases a <;> cases Input.anySkipped is <;> simp
  · rw [hl]
    exact sortedDecls_sorted _
  · intro n
    rw [hl, mem_sortedDecls, hI.failed]
    refine or_congr_left ?_
    simp only [st]
    rw [C47_reported, List.mem_map]
    simp only [List.mem_filter, and_assoc]

/-- Up to the first file that cannot be written, the runs agree. -/
theorem runToolW_stop (st : RunState) (fs : List SourceFile) :
    ∃ l, (fs.foldl (processFile o req) st).written = st.written ++ l ∧
      (runToolW true o req w st fs).1.written = st.written ++ l.takeWhile (fun x => w x.1) ∧
      ((runToolW true o req w st fs).2 = true ↔ ∃ x ∈ l, w x.1 = false) ∧
      ((runToolW true o req w st fs).2 = false →
        (runToolW true o req w st fs).1 = fs.foldl (processFile o req) st) := by
  induction fs generalizing st with
  | nil => exact ⟨[], by simp, by simp [runToolW], by simp [runToolW], fun _ => rfl⟩
  | cons f fs ih =>
    rw [List.foldl_cons, runToolW, Bool.true_and]
    cases hf : writeFails o req w st f with
    | false =>
      rw [if_neg (by simp), processFileW_ok st f hf]
      obtain ⟨l, h1, h2, h3, h4⟩ := ih (processFile o req st f)
      obtain ⟨m, hm, hm'⟩ : ∃ m, (processFile o req st f).written = st.written ++ m ∧
          ∀ x ∈ m, w x.1 = true := by
        unfold processFile
        split
        · exact ⟨[], by simp, by simp⟩
        · rename_i hc
          rw [Bool.not_eq_true] at hc
          cases ho : (handleTU o req st.nextId f).output with
          | none => exact ⟨[], by simp [ho], by simp⟩
          | some t =>
            refine ⟨[(f.name, t)], by simp [ho], ?_⟩
            rw [writeFails, hc, ho] at hf
            simpa using hf
      refine ⟨m ++ l, by rw [h1, hm, List.append_assoc], ?_, ?_, h4⟩
      · rw [h2, hm, List.append_assoc, List.takeWhile_append_of_pos]
        exact hm'
      · rw [h3]
        constructor
        · rintro ⟨x, hx, hx'⟩
          exact ⟨x, by simp [hx], hx'⟩
        · rintro ⟨x, hx, hx'⟩
          rcases List.mem_append.1 hx with hx | hx
          · rw [hm' x hx] at hx'
            cases hx'
          · exact ⟨x, hx, hx'⟩
    | true =>
      rw [if_pos rfl]
      obtain ⟨l, hl⟩ := foldl_written_prefix o req fs (processFile o req st f)
      have hc : st.processed.contains f.name = false := by
        cases h : st.processed.contains f.name
        · rfl
        · rw [writeFails, h] at hf
          cases hf
      have hw : w f.name = false := by
        cases h : w f.name
        · rfl
        · simp [writeFails, h] at hf
      cases ho : (handleTU o req st.nextId f).output with
      | none => simp [writeFails, ho] at hf
      | some t =>
        have e1 : (processFile o req st f).written = st.written ++ [(f.name, t)] := by
          rw [processFile, hc]
          simp [ho]
        have e2 : (processFileW o req w st f).written = st.written := by
          rw [processFileW, hc]
          simp [ho, hw]
        refine ⟨(f.name, t) :: l, by rw [← hl, e1]; simp, by rw [e2]; simp [hw], ?_, by simp⟩
        simp [hw]

/-- C73: built with assertions, the program stops at the first mutated file that cannot be written.  The
files before it have their new contents, the others are unchanged, and no mutation information is
written. -/
theorem C73_asserts (o : Options) (req canWrite : Bool) (w : Text → Bool) (is : List Input)
    (h : ∃ x ∈ (runTool o req (Input.parsed is)).written, w x.1 = false) :
    mainRunW true o req canWrite w is =
      ⟨none, (runTool o req (Input.parsed is)).written.takeWhile (fun x => w x.1), [], none⟩ := by
  obtain ⟨l, h1, h2, h3, -⟩ := runToolW_stop (o := o) (req := req) (w := w) {} (Input.parsed is)
  have e : (runTool o req (Input.parsed is)).written = l := by
    rw [runTool, h1]
    rfl
  rw [e] at h ⊢
  unfold mainRunW
  rw [Input.files_eq]
  simp only [h3.2 h, if_true, h2]
  rfl

/-- C73: built with assertions, if every mutated file can be written, the run is the one of C70. -/
theorem C73_asserts_writable (o : Options) (req canWrite : Bool) (w : Text → Bool) (is : List Input)
    (h : ∀ x ∈ (runTool o req (Input.parsed is)).written, w x.1 = true) :
    mainRunW true o req canWrite w is = mainRun true o req canWrite is := by
  obtain ⟨l, h1, h2, h3, h4⟩ := runToolW_stop (o := o) (req := req) (w := w) {} (Input.parsed is)
  have e : (runTool o req (Input.parsed is)).written = l := by
    rw [runTool, h1]
    rfl
  have hs : (runToolW true o req w {} (Input.parsed is)).2 = false := by
    cases hh : (runToolW true o req w {} (Input.parsed is)).2
    · rfl
    · obtain ⟨x, hx, hx'⟩ := h3.1 hh
      rw [h x (e ▸ hx)] at hx'
      cases hx'
  unfold mainRunW mainRun
  rw [Input.files_eq]
  simp only [hs, h4 hs, Bool.false_eq_true, if_false]
  rfl

/-- The mutation information does not list exactly the mutated files, in a build without assertions: it
also lists every file that could not be written. -/
theorem C73_false_info (o : Options) (w : Text → Bool) (is : List Input) (n t : Text)
    (h : (n, t) ∈ (runTool o true (Input.parsed is)).written) (hw : w n = false) :
    let r := mainRunW false o true true w is
    (∃ info : List FileInfo, r.info = some (infoFile info) ∧ n ∈ info.map (·.filename)) ∧
    ∀ t', (n, t') ∉ r.written := by
  intro r
  obtain ⟨h1, h2, -⟩ := C73_release o true true w is
  refine ⟨⟨_, h2, ?_⟩, ?_⟩
  · rw [C06_entries_are_written_files]
    exact List.mem_map.2 ⟨_, h, rfl⟩
  · intro t' ht
    change (n, t') ∈ (mainRunW false o true true w is).written at ht
    rw [h1, List.mem_filter, hw] at ht
    cases ht.2

/-- For example: two files are mutated, the first of them cannot be written. -/
example : let is := [Input.file (Sample.file t!"a.cc" Sample.cpp), .file (Sample.file t!"b.cc" Sample.cpp)]
    let r := mainRunW false Sample.opts true true (· != t!"a.cc") is
    r.exit = some 1 ∧ r.written.map (·.1) = [t!"b.cc"] ∧ r.listed = [t!"a.cc"] ∧
    (mainRunW true Sample.opts true true (· != t!"b.cc") is).written.map (·.1) = [t!"a.cc"] ∧
    (mainRunW true Sample.opts true true (· != t!"b.cc") is).exit = none := by
  decide +kernel

end Dredd
