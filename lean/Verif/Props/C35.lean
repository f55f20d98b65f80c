/-
C35: the query script reports the largest id and knows every id.
-/
import Verif.Model.Query
import Verif.Props.C01

namespace Dredd

/-- The instances of a group with their ids, as they are written. -/
def Group.written : Group → List (Nat × Option Json)
  | .removeStmt id _ => [(id, none)]
  | .replaceExpr _ is => is.map fun i => (i.1, some (EAct.instJson true i))
  | .replaceBin _ _ _ _ is => is.map fun i => (i.1, some (BAct.instJson true i))
  | .replaceUn _ _ _ is => is.map fun i => (i.1, some (UAct.instJson true i))

/-- The name of the alternative of a group. -/
def Group.kind : Group → Text
  | .removeStmt _ _ => t!"removeStmt"
  | .replaceExpr _ _ => t!"replaceExpr"
  | .replaceBin _ _ _ _ _ => t!"replaceBinaryOperator"
  | .replaceUn _ _ _ _ => t!"replaceUnaryOperator"

/-- What the script should know about an instance of a group of a file. -/
def expectedInfo (f : FileInfo) (g : Group) (i : Option Json) : Query.MutantInfo :=
  ⟨g.kind, f.toJson true, g.toJson true, i⟩

namespace Query

/-- The pairs that are stored for a group, in order. -/
def groupRecords (f : FileInfo) (g : Group) : Dict :=
  g.written.map fun p => ((p.1 : Int), expectedInfo f g p.2)

/-- The pairs that are stored for all files, in order. -/
def records (fs : List FileInfo) : Dict :=
  fs.flatMap fun f => f.nodes.flatMap fun n => n.groups.flatMap (groupRecords f)

/-- Storing several pairs. -/
def Dict.setAll (d : Dict) (ps : Dict) : Dict := ps.foldl (fun d p => d.set p.1 p.2) d

theorem Dict.setAll_append (d : Dict) (a b : Dict) : d.setAll (a ++ b) = (d.setAll a).setAll b :=
  List.foldl_append ..

theorem mapInstances_eq {α : Type} (kind : Text) (file group : Json) (f : Nat × α → Json)
    (hf : ∀ i, (f i).get t!"mutationId" = some (.num (i.1 : Nat))) (is : List (Nat × α)) (d : Dict) :
    mapInstances kind file group (is.map f) d =
      some (d.setAll (is.map fun i => ((i.1 : Int), ⟨kind, file, group, some (f i)⟩))) := by
  induction is generalizing d with
  | nil => rfl
  | cons i is ih =>
    simp only [List.map_cons, mapInstances, hf, Option.bind_some, Json.int]
    rw [ih]
    rfl

theorem mapGroup_eq (f : FileInfo) (g : Group) (d : Dict) :
    mapGroup (f.toJson true) (g.toJson true) d = some (d.setAll (groupRecords f g)) := by
  cases g with
  | removeStmt id r => rfl
  | replaceExpr r is =>
    have h := mapInstances_eq t!"replaceExpr" (f.toJson true) ((Group.replaceExpr r is).toJson true)
      (EAct.instJson true) (fun _ => rfl) is d
    simp only [groupRecords, Group.written, List.map_map]
    exact h
  | replaceBin op r lhs rhs is =>
    have h := mapInstances_eq t!"replaceBinaryOperator" (f.toJson true)
      ((Group.replaceBin op r lhs rhs is).toJson true) (BAct.instJson true) (fun _ => rfl) is d
    simp only [groupRecords, Group.written, List.map_map]
    exact h
  | replaceUn op r sub is =>
    have h := mapInstances_eq t!"replaceUnaryOperator" (f.toJson true)
      ((Group.replaceUn op r sub is).toJson true) (UAct.instJson true) (fun _ => rfl) is d
    simp only [groupRecords, Group.written, List.map_map]
    exact h

theorem mapGroups_eq (f : FileInfo) (gs : List Group) (d : Dict) :
    mapGroups (f.toJson true) (gs.map (Group.toJson true)) d =
      some (d.setAll (gs.flatMap (groupRecords f))) := by
  induction gs generalizing d with
  | nil => rfl
  | cons g gs ih =>
    simp only [List.map_cons, mapGroups, mapGroup_eq, Option.bind_some, ih, List.flatMap_cons,
      Dict.setAll_append]

theorem mapNodes_eq (f : FileInfo) (ns : List PNode) (d : Dict) :
    mapNodes (f.toJson true) (ns.map (PNode.toJson true)) d =
      some (d.setAll (ns.flatMap fun n => n.groups.flatMap (groupRecords f))) := by
  induction ns generalizing d with
  | nil => rfl
  | cons n ns ih =>
    have h : (n.toJson true).get t!"mutationGroups" = some (.arr (n.groups.map (Group.toJson true))) :=
      rfl
    simp only [List.map_cons, mapNodes, h, Option.bind_some, Json.list, mapGroups_eq, ih,
      List.flatMap_cons, Dict.setAll_append]

theorem mapFiles_eq (fs : List FileInfo) (d : Dict) :
    mapFiles (fs.map (FileInfo.toJson true)) d = some (d.setAll (records fs)) := by
  induction fs generalizing d with
  | nil => rfl
  | cons f fs ih =>
    have h : (f.toJson true).get t!"mutationTree" = some (.arr (f.nodes.map (PNode.toJson true))) :=
      rfl
    simp only [List.map_cons, mapFiles, h, Option.bind_some, Json.list, mapNodes_eq, ih, records,
      List.flatMap_cons, Dict.setAll_append]

theorem mapping_eq (fs : List FileInfo) : mapping (infoFile fs) = some (Dict.setAll [] (records fs)) := by
  have h : (infoFile fs).get t!"infoForFiles" = some (.arr (fs.map (FileInfo.toJson true))) := rfl
  simp only [mapping, h, Option.bind_some, Json.list, mapFiles_eq]

theorem Dict.set_new (d : Dict) (k : Int) (v : MutantInfo) (h : k ∉ d.map (·.1)) :
    d.set k v = d ++ [(k, v)] := by
  unfold Dict.set
  rw [if_neg]
  simp only [List.any_eq_true, beq_iff_eq, not_exists, not_and]
  rintro p hp rfl
  exact h (List.mem_map.2 ⟨p, hp, rfl⟩)

theorem Dict.setAll_nodup (ps d : Dict) (h : ((d ++ ps).map (·.1)).Nodup) :
    d.setAll ps = d ++ ps := by
  induction ps generalizing d with
  | nil => simp [Dict.setAll]
  | cons p ps ih =>
    have hp : p.1 ∉ d.map (·.1) := by
      intro hm
      rw [List.map_append, List.nodup_append] at h
      exact h.2.2 p.1 hm p.1 (by simp) rfl
    show Dict.setAll (d.set p.1 p.2) ps = _
    rw [Dict.set_new _ _ _ hp, ih _ (by simpa using h)]
    simp

theorem Group.written_ids (g : Group) : g.written.map (·.1) = g.ids := by
  cases g <;> simp [Group.written, Group.ids]

theorem records_keys (fs : List FileInfo) :
    (records fs).map (·.1) =
      ((fs.flatMap (·.nodes)).flatMap fun n => n.groups.flatMap Group.ids).map Int.ofNat := by
  have hg : ∀ (f : FileInfo) (g : Group), (groupRecords f g).map (·.1) = g.ids.map Int.ofNat := by
    intro f g
    rw [← Group.written_ids]
    simp [groupRecords]
  unfold records
  rw [List.flatMap_assoc]
  simp only [List.map_flatMap, hg]

end Query

open Query

/-- The keys of the mapping are the ids of the run, each once. -/
theorem mapping_run (o : Options) (fs : List SourceFile) :
    mapping (infoFile (runTool o true fs).info) = some (records (runTool o true fs).info) ∧
    ((records (runTool o true fs).info).map (·.1)).Perm
      ((List.range (runTool o true fs).nextId).map Int.ofNat) := by
  have hp : ((records (runTool o true fs).info).map (·.1)).Perm
      ((List.range (runTool o true fs).nextId).map Int.ofNat) := by
    rw [records_keys]
    exact (C01_flat_ids_perm o fs).map _
  refine ⟨?_, hp⟩
  rw [mapping_eq, Dict.setAll_nodup]
  · rfl
  · rw [List.nil_append]
    refine hp.symm.nodup_iff.1 ?_
    exact List.pairwise_map.2 (List.nodup_range.imp fun h1 h2 => h1 (Int.ofNat.inj h2))

theorem foldl_max (ks : List Int) (k : Int) :
    (k ≤ ks.foldl max k ∧ ∀ x ∈ ks, x ≤ ks.foldl max k) ∧
    (ks.foldl max k = k ∨ ks.foldl max k ∈ ks) := by
  induction ks generalizing k with
  | nil => simp
  | cons y ys ih =>
    obtain ⟨⟨h1, h2⟩, h3⟩ := ih (max k y)
    refine ⟨⟨?_, ?_⟩, ?_⟩
    · exact Int.le_trans (Int.le_max_left ..) h1
    · intro x hx
      rcases List.mem_cons.1 hx with rfl | hx
      · exact Int.le_trans (Int.le_max_right ..) h1
      · exact h2 x hx
    · rw [List.foldl_cons]
      rcases h3 with h3 | h3
      · rw [h3]
        have : max k y = k ∨ max k y = y := by omega
        rcases this with h | h
        · exact .inl h
        · exact .inr (by simp [h])
      · exact .inr (List.mem_cons_of_mem _ h3)

/-- C35: `--largest-mutant-id` prints `N - 1`, where `N` is the number of mutants
of the run; this is -1 if there are none. -/
theorem C35_largest (o : Options) (fs : List SourceFile) :
    largest (infoFile (runTool o true fs).info) = some ((runTool o true fs).nextId - 1 : Int) := by
  obtain ⟨h1, h2⟩ := mapping_run o fs
  simp only [largest, h1, Option.map_some, Option.some.injEq]
  generalize (records (runTool o true fs).info).map (·.1) = ks at h2
  generalize (runTool o true fs).nextId = n at h2
  have hmem : ∀ x : Int, x ∈ ks ↔ ∃ i : Nat, i < n ∧ (i : Int) = x := by
    intro x
    rw [h2.mem_iff]
    simp
  cases ks with
  | nil =>
    have : ¬ ∃ i : Nat, i < n ∧ (i : Int) = 0 := by rw [← hmem]; simp
    have hn : n = 0 := by
      rcases Nat.eq_zero_or_pos n with h | h
      · exact h
      · exact absurd ⟨0, h, rfl⟩ this
    subst hn
    rfl
  | cons k ks =>
    obtain ⟨⟨h3, h4⟩, h5⟩ := foldl_max ks k
    show ks.foldl max k = _
    have hM : ks.foldl max k ∈ k :: ks := by
      rcases h5 with h | h
      · rw [h]; simp
      · exact List.mem_cons_of_mem _ h
    obtain ⟨i, hi, hi'⟩ := (hmem _).1 hM
    have hle : ((n - 1 : Nat) : Int) ≤ ks.foldl max k := by
      have : ((n - 1 : Nat) : Int) ∈ k :: ks := (hmem _).2 ⟨n - 1, by omega, rfl⟩
      rcases List.mem_cons.1 this with h | h
      · rw [h]; exact h3
      · exact h4 _ h
    omega

theorem lookup_of_nodup {β : Type} (d : List (Int × β)) (k : Int) (v : β) (hn : (d.map (·.1)).Nodup)
    (hm : (k, v) ∈ d) : d.lookup k = some v := by
  induction d with
  | nil => cases hm
  | cons p d ih =>
    rw [List.map_cons, List.nodup_cons] at hn
    rcases List.mem_cons.1 hm with rfl | hm'
    · simp [List.lookup]
    · have : k ≠ p.1 := by
        rintro rfl
        exact hn.1 (List.mem_map.2 ⟨_, hm', rfl⟩)
      have hb : (k == p.1) = false := by simpa using this
      obtain ⟨pk, pv⟩ := p
      simp only [List.lookup, hb]
      exact ih hn.2 hm'

theorem mem_of_lookup {β : Type} (d : List (Int × β)) (k : Int) (v : β)
    (h : d.lookup k = some v) : (k, v) ∈ d := by
  induction d with
  | nil => cases h
  | cons p d ih =>
    obtain ⟨pk, pv⟩ := p
    by_cases hk : k = pk
    · subst hk
      simp [List.lookup] at h
      simp [h]
    · have hb : (k == pk) = false := by simpa using hk
      simp only [List.lookup, hb] at h
      exact List.mem_cons_of_mem _ (ih h)

/-- C35: an instance that the run writes (in group `g` of some node of the entry of
file `f`) is found under its id, with that file, group and instance. -/
theorem C35_found (o : Options) (fs : List SourceFile) (f : FileInfo) (n : PNode) (g : Group)
    (id : Nat) (i : Option Json) (hf : f ∈ (runTool o true fs).info) (hn : n ∈ f.nodes)
    (hg : g ∈ n.groups) (hi : (id, i) ∈ g.written) :
    ∃ d, mapping (infoFile (runTool o true fs).info) = some d ∧
      Dict.get d id = some (expectedInfo f g i) := by
  obtain ⟨h1, h2⟩ := mapping_run o fs
  refine ⟨_, h1, lookup_of_nodup _ _ _ ?_ ?_⟩
  · refine h2.symm.nodup_iff.1 ?_
    exact List.pairwise_map.2 (List.nodup_range.imp fun h1 h2 => h1 (Int.ofNat.inj h2))
  · refine List.mem_flatMap.2 ⟨f, hf, List.mem_flatMap.2 ⟨n, hn, List.mem_flatMap.2 ⟨g, hg, ?_⟩⟩⟩
    exact List.mem_map.2 ⟨_, hi, rfl⟩

/-- C35: every id below `N` is found, as an instance that the run has written. -/
theorem C35_known (o : Options) (fs : List SourceFile) (id : Nat)
    (hid : id < (runTool o true fs).nextId) :
    ∃ d f n g i, mapping (infoFile (runTool o true fs).info) = some d ∧
      f ∈ (runTool o true fs).info ∧ n ∈ f.nodes ∧ g ∈ n.groups ∧ (id, i) ∈ g.written ∧
      Dict.get d id = some (expectedInfo f g i) := by
  obtain ⟨h1, h2⟩ := mapping_run o fs
  have hm : (id : Int) ∈ (records (runTool o true fs).info).map (·.1) :=
    h2.mem_iff.2 (List.mem_map.2 ⟨id, List.mem_range.2 hid, rfl⟩)
  obtain ⟨⟨k, v⟩, hp, hk⟩ := List.mem_map.1 hm
  cases hk
  obtain ⟨f, hf, hp⟩ := List.mem_flatMap.1 hp
  obtain ⟨n, hn, hp⟩ := List.mem_flatMap.1 hp
  obtain ⟨g, hg, hp⟩ := List.mem_flatMap.1 hp
  obtain ⟨⟨j, i⟩, hi, heq⟩ := List.mem_map.1 hp
  simp only [Prod.mk.injEq] at heq
  obtain rfl : j = id := Int.ofNat.inj heq.1
  obtain ⟨d, hd, hget⟩ := C35_found o fs f n g j i hf hn hg hi
  exact ⟨d, f, n, g, i, hd, hf, hn, hg, hi, hget⟩

/-- C35: no other id is found. -/
theorem C35_unknown (o : Options) (fs : List SourceFile) (id : Int)
    (hid : ¬ ∃ i : Nat, i < (runTool o true fs).nextId ∧ id = i) :
    ∃ d, mapping (infoFile (runTool o true fs).info) = some d ∧ Dict.get d id = none := by
  obtain ⟨h1, h2⟩ := mapping_run o fs
  refine ⟨_, h1, ?_⟩
  rcases hc : Dict.get (records (runTool o true fs).info) id with _ | v
  · rfl
  · have : id ∈ (records (runTool o true fs).info).map (·.1) :=
      List.mem_map.2 ⟨_, mem_of_lookup _ _ _ hc, rfl⟩
    obtain ⟨i, hi, rfl⟩ := List.mem_map.1 (h2.mem_iff.1 this)
    exact absurd ⟨i, List.mem_range.1 hi, rfl⟩ hid

/-- A run with 50 mutants in two files, and a run without mutants. -/
example : largest (infoFile (runTool Sample.opts true Sample.run).info) = some 49 ∧
    largest (infoFile (runTool Sample.opts true []).info) = some (-1) := by
  refine ⟨?_, rfl⟩
  rw [C35_largest]
  have : (runTool Sample.opts true Sample.run).nextId = 50 := by decide +kernel
  rw [this]; rfl

/-- The option `always_print_primitive_fields` (main.cc 180) matters: without it
the id 0 is left out of the file and the script fails. -/
example : mapping (infoToJson false [⟨t!"a.c", [⟨[.removeStmt 0 ⟨⟨1, 1⟩, ⟨1, 3⟩, t!"x;"⟩], []⟩]⟩]) =
    none := by rfl

end Dredd
