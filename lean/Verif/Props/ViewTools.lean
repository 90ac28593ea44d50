import Verif.Lemmas.ViewToolsArgs

/-! Property theorem C67: what the command line tools of the view engine are told to do. -/

namespace Couchstore.Props

open Couchstore Couchstore.ViewTools

/-! ## C67 The tools do what their input says -/

/-- The description of a group is read as it was written, and nothing of what follows is consumed. -/
theorem C67_group_is_read (g : GroupInfo) (h : GroupOk g) (rest : Bytes) :
    readGroupInfo (groupText g ++ rest) = .ok (g, rest) := readGroupInfo_reads h rest

/-- Each tool calls the library with the arguments that were written. -/
theorem C67_cleanup_is_called (g : GroupInfo) (h : GroupOk g) (rest : Bytes) :
    runTool cleanupArgs (groupText g ++ rest) = .call g := (cleanup_reads h).run rest

theorem C67_builder_is_called (a : BuilderArgs) (h : BuilderOk a) (rest : Bytes) :
    runTool builderArgs (builderText a ++ rest) = .call a := (builder_reads h).run rest

theorem C67_updater_is_called (a : UpdaterArgs) (h : UpdaterOk a) (rest : Bytes) :
    runTool updaterArgs (updaterText a ++ rest) = .call a := (updater_reads h).run rest

theorem C67_compactor_is_called (a : CompactorArgs) (h : CompactorOk a) (rest : Bytes) :
    runTool compactorArgs (compactorText a ++ rest) = .call a := (compactor_reads h).run rest

theorem C67_merger_is_called (a : MergerArgs) (h : MergerOk a) (rest : Bytes) :
    runTool mergerArgs (mergerText a ++ rest) = .call a := (merger_reads h).run rest

/-- If the input of the compaction ends anywhere too early, nothing is compacted, and the exit status says so. -/
theorem C67_cut_compactor (a : CompactorArgs) (h : CompactorOk a) (p : Bytes) (hp : p <+: compactorText a)
    (hne : p ≠ compactorText a) : ∃ status, status ≠ 0 ∧ runTool compactorArgs p = .exit status := by
  obtain ⟨s, hs, e⟩ := compactor_cut h p hp hne
  exact ⟨_, hs, by unfold runTool; rw [e]⟩

/-- If the input of the cleanup ends too early, nothing is done, and the exit status says so, or only the newline
at the end was missing. -/
theorem C67_cut_cleanup (g : GroupInfo) (h : GroupOk g) (p : Bytes) (hp : p <+: groupText g) (hne : p ≠ groupText g) :
    (∃ status, status ≠ 0 ∧ runTool cleanupArgs p = .exit status) ∨ runTool cleanupArgs p = .call g := by
  rcases cleanup_cut h p hp hne with ⟨s, hs, e⟩ | e
  · exact Or.inl ⟨_, hs, by unfold runTool; rw [e]⟩
  · exact Or.inr (by unfold runTool; rw [e])

/-- If the input of an update ends too early, nothing is updated.  Missing of the full claim: the exit status
may be 0 (`C67_cut_updater_reports_success`). -/
theorem C67_cut_updater_partial (a : UpdaterArgs) (h : UpdaterOk a) (p : Bytes) (hp : p <+: updaterText a)
    (hne : p ≠ updaterText a) : ∃ status, runTool updaterArgs p = .exit status := by
  obtain ⟨s, e⟩ := updater_cut h p hp hne
  exact ⟨_, by unfold runTool; rw [e]⟩

/-- If the input of a build ends too early, nothing is built and the exit status says so, or only the name of the
last file has been cut.  Missing of the full claim: that name is used (`C67_cut_name_is_used`). -/
theorem C67_cut_builder_partial (a : BuilderArgs) (h : BuilderOk a) (init : List Bytes) (last : Bytes)
    (hl : a.sources = init ++ [last]) (p : Bytes) (hp : p <+: builderText a) (hne : p ≠ builderText a) :
    (∃ status, status ≠ 0 ∧ runTool builderArgs p = .exit status) ∨
      ∃ name, name <+: last ∧ name ≠ [] ∧ runTool builderArgs p = .call { a with sources := init ++ [name] } := by
  rcases builder_cut h hl p hp hne with ⟨s, hs, e⟩ | ⟨q, h1, h2, e⟩
  · exact Or.inl ⟨_, hs, by unfold runTool; rw [e]⟩
  · exact Or.inr ⟨q, h1, h2, by unfold runTool; rw [e]⟩

/-- The same of a merge, and the name of the destination. -/
theorem C67_cut_merger_partial (a : MergerArgs) (h : MergerOk a) (p : Bytes) (hp : p <+: mergerText a) (hne : p ≠ mergerText a) :
    (∃ status, status ≠ 0 ∧ runTool mergerArgs p = .exit status) ∨
      ∃ name, name <+: a.dest ∧ name ≠ [] ∧ runTool mergerArgs p = .call { a with dest := name } := by
  rcases merger_cut h p hp hne with ⟨s, hs, e⟩ | ⟨q, h1, h2, e⟩
  · exact Or.inl ⟨_, hs, by unfold runTool; rw [e]⟩
  · exact Or.inr ⟨q, h1, h2, by unfold runTool; rw [e]⟩

/-! ### Examples -/

/-- Two b-trees: one with the views "a" (`_sum`) and "b" (a function with a newline in it), one without a
reduce function. -/
def sampleGroup : GroupInfo :=
  { filepath := [47, 120], headerPos := 4096
    views := .mapreduce [[⟨[97], [95, 115, 117, 109]⟩, ⟨[98], [102, 10, 125]⟩], []] }

theorem lineOk_of {n : Nat} {l : Bytes} (h : (!l.contains 0 && !l.contains 10 && decide (l.length + 2 ≤ n)) = true) : LineOk n l := by
  simp only [Bool.and_eq_true, Bool.not_eq_true', decide_eq_true_eq, ← Bool.not_eq_true, List.contains_iff_mem] at h
  exact ⟨h.1.1, h.1.2, h.2⟩

theorem sampleGroup_ok : GroupOk sampleGroup := by
  refine ⟨lineOk_of (by decide), by decide, by decide, ?_⟩
  show ∀ b ∈ _, _
  intro b hb
  rcases List.mem_cons.mp hb with rfl | hb
  · refine ⟨by decide, ?_⟩
    intro v hv
    rcases List.mem_cons.mp hv with rfl | hv
    · exact ⟨lineOk_of (by decide), by decide, by decide, by decide⟩
    · rw [List.mem_singleton] at hv
      subst hv
      exact ⟨lineOk_of (by decide), by decide, by decide, by decide⟩
  · rw [List.mem_singleton] at hb
    subst hb
    exact ⟨by decide, fun v hv => nomatch hv⟩

/-- Spatial views, of which the first has not been built yet. -/
def sampleSpatial : GroupInfo :=
  { filepath := [47, 120], headerPos := 0, views := .spatial [⟨0, []⟩, ⟨1, [0, 0, 0, 0, 0, 0, 0, 0, 10, 0, 0, 0, 0, 0, 240, 63]⟩] }

theorem sampleSpatial_ok : GroupOk sampleSpatial := by
  refine ⟨lineOk_of (by decide), by decide, by decide, ?_⟩
  show ∀ s ∈ _, _
  decide

def sampleBuilder : BuilderArgs := { group := sampleGroup, tmpDir := [116], dest := [100], sources := [[105], [49, 49], [49, 50]] }

theorem sampleBuilder_ok : BuilderOk sampleBuilder := by
  refine ⟨sampleGroup_ok, lineOk_of (by decide), lineOk_of (by decide), ?_, rfl⟩
  intro l hl
  exact lineOk_of (by revert l; decide)

def sampleUpdater : UpdaterArgs :=
  { tmpDir := [116], group := sampleSpatial, sorted := true, sources := [[105], [49], [50]], batchSize := 512, header := [1, 2, 0, 10] }

theorem sampleUpdater_ok : UpdaterOk sampleUpdater := by
  refine ⟨lineOk_of (by decide), sampleSpatial_ok, ?_, rfl, by decide, by decide⟩
  intro l hl
  exact lineOk_of (by revert l; decide)

def sampleCompactor : CompactorArgs := { target := [116], totalChanges := 1000, group := sampleGroup, header := [1, 2, 0, 10] }

theorem sampleCompactor_ok : CompactorOk sampleCompactor :=
  ⟨lineOk_of (by decide), by decide, sampleGroup_ok, by decide⟩

def sampleMerger : MergerArgs := { type := 115, tmpDir := [116, 32], sources := [[49], [32, 50]], dest := [100] }

theorem sampleMerger_ok : MergerOk sampleMerger := by
  refine ⟨by decide, ⟨lineOk_of (by decide), 116, [32], rfl, by decide⟩, ?_, ⟨[49], [[32, 50]], rfl, 49, [], rfl, by decide⟩, by decide,
    lineOk_of (by decide)⟩
  intro l hl
  exact lineOk_of (by revert l; decide)

example : readGroupInfo (groupText sampleGroup ++ [1, 2]) = .ok (sampleGroup, [1, 2]) := C67_group_is_read _ sampleGroup_ok _
example : runTool cleanupArgs (groupText sampleSpatial ++ [101]) = .call sampleSpatial := C67_cleanup_is_called _ sampleSpatial_ok _
example : runTool builderArgs (builderText sampleBuilder ++ [101]) = .call sampleBuilder := C67_builder_is_called _ sampleBuilder_ok _
example : runTool updaterArgs (updaterText sampleUpdater ++ [101]) = .call sampleUpdater := C67_updater_is_called _ sampleUpdater_ok _
example : runTool compactorArgs (compactorText sampleCompactor ++ [101]) = .call sampleCompactor :=
  C67_compactor_is_called _ sampleCompactor_ok _
example : runTool mergerArgs (mergerText sampleMerger ++ [101]) = .call sampleMerger := C67_merger_is_called _ sampleMerger_ok _

example : ∃ status, status ≠ 0 ∧ runTool compactorArgs (compactorText sampleCompactor).dropLast = .exit status :=
  C67_cut_compactor _ sampleCompactor_ok _ (List.dropLast_prefix _) (by decide +kernel)

example : (∃ status, status ≠ 0 ∧ runTool cleanupArgs (groupText sampleGroup).dropLast = .exit status) ∨
    runTool cleanupArgs (groupText sampleGroup).dropLast = .call sampleGroup :=
  C67_cut_cleanup _ sampleGroup_ok _ (List.dropLast_prefix _) (by decide +kernel)

example : ∃ status, runTool updaterArgs (updaterText sampleUpdater).dropLast = .exit status :=
  C67_cut_updater_partial _ sampleUpdater_ok _ (List.dropLast_prefix _) (by decide +kernel)

example : (∃ status, status ≠ 0 ∧ runTool builderArgs (builderText sampleBuilder).dropLast = .exit status) ∨
    ∃ name, name <+: [49, 50] ∧ name ≠ [] ∧
      runTool builderArgs (builderText sampleBuilder).dropLast = .call { sampleBuilder with sources := [[105], [49, 49]] ++ [name] } :=
  C67_cut_builder_partial _ sampleBuilder_ok _ _ rfl _ (List.dropLast_prefix _) (by decide +kernel)

example : (∃ status, status ≠ 0 ∧ runTool mergerArgs (mergerText sampleMerger).dropLast.dropLast = .exit status) ∨
    ∃ name, name <+: [100] ∧ name ≠ [] ∧
      runTool mergerArgs (mergerText sampleMerger).dropLast.dropLast = .call { sampleMerger with dest := name } :=
  C67_cut_merger_partial _ sampleMerger_ok _ ((List.dropLast_prefix _).trans (List.dropLast_prefix _)) (by decide +kernel)

/-! ### What is no description is refused -/

/-- A number of the group's type that means nothing. -/
theorem C67_unknown_type_is_refused (type : Nat) (small : type < 2 ^ 64) (h0 : type ≠ 0) (h1 : type ≠ 1) (rest : Bytes) :
    ∃ status, status ≠ 0 ∧ runTool cleanupArgs (num type ++ rest) = .exit status :=
  (orFail_fails (group_type small h0 h1 rest) bad_alloc).run

/-- A line without digits where the position of the header should be. -/
theorem C67_garbage_is_refused (type : Nat) (ht : type = 0 ∨ type = 1) (path l : Bytes) (hp : LineOk 4096 path)
    (hl : LineOk 4096 l) (hd : ∀ b ∈ l, b < 48 ∨ 57 < b) (rest : Bytes) :
    ∃ status, status ≠ 0 ∧ runTool cleanupArgs (num type ++ (line path ++ (line l ++ rest))) = .exit status :=
  (orFail_fails (group_garbage ht hp hl (fun b hb => by
    refine decide_eq_false fun ⟨h1, h2⟩ => ?_
    rcases hd b hb with h | h
    · exact absurd h (UInt8.not_lt.mpr h1)
    · exact absurd h (UInt8.not_lt.mpr h2)) rest) bad_alloc).run

example : ∃ status, status ≠ 0 ∧ runTool cleanupArgs (num 2 ++ groupText sampleGroup) = .exit status :=
  C67_unknown_type_is_refused 2 (by decide) (by decide) (by decide) _

example : ∃ status, status ≠ 0 ∧ runTool cleanupArgs (num 1 ++ (line [47] ++ (line [45, 97] ++ [48, 10]))) = .exit status :=
  C67_garbage_is_refused 1 (Or.inr rfl) [47] [45, 97] (lineOk_of (by decide)) (lineOk_of (by decide)) (by decide) _

/-! ### What is not so -/

/-- An update whose header is cut does nothing and exits with status 0. -/
theorem C67_cut_updater_reports_success : ∃ a, UpdaterOk a ∧ ∃ p, p <+: updaterText a ∧ p ≠ updaterText a ∧
    runTool updaterArgs p = .exit 0 :=
  ⟨sampleUpdater, sampleUpdater_ok, (updaterText sampleUpdater).dropLast, List.dropLast_prefix _, by decide +kernel, by decide +kernel⟩

/-- A build whose input ends within the name of the last file reads another file. -/
theorem C67_cut_name_is_used : ∃ a, BuilderOk a ∧ ∃ p, p <+: builderText a ∧ p ≠ builderText a ∧
    runTool builderArgs p = .call { a with sources := [[105], [49, 49], [49]] } :=
  ⟨sampleBuilder, sampleBuilder_ok, (builderText sampleBuilder).dropLast.dropLast,
    (List.dropLast_prefix _).trans (List.dropLast_prefix _), by decide +kernel, by decide +kernel⟩

/-- A view with an empty reduce function cannot be described. -/
theorem C67_empty_reduce_function_is_refused : ∃ g : GroupInfo,
    g.views = .mapreduce [[⟨[97], []⟩]] ∧ LineOk 4096 g.filepath ∧ runTool cleanupArgs (groupText g) = .exit 97 :=
  ⟨{ sampleGroup with views := .mapreduce [[⟨[97], []⟩]] }, rfl, sampleGroup_ok.path, by decide +kernel⟩

/-- A length of 2^32-1 is taken for -1, and the reduce function is read into memory of size 0. -/
theorem C67_negative_length_overruns : runTool cleanupArgs
    (num 0 ++ line [47] ++ num 0 ++ num 1 ++ num 1 ++ line [97] ++ num (2 ^ 32 - 1) ++ [120, 121]) = .undefined := by
  decide +kernel

/-- A name that does not fit is no error: what follows the first 4095 bytes is taken for the next line. -/
theorem C67_long_name_is_split (path : Bytes) (h0 : 0 ∉ path) (h10 : 10 ∉ path) (hl : path.length = 4095) (pos : Nat)
    (hp : pos < 2 ^ 64) : runTool cleanupArgs (num 1 ++ (line (path ++ decimal pos) ++ (num 0 ++ []))) =
      .call ⟨path, pos, .spatial []⟩ := by
  unfold runTool cleanupArgs In.orFail
  rw [group_split h0 h10 hl hp]

example : runTool cleanupArgs (num 1 ++ (line (List.replicate 4095 97 ++ decimal 17) ++ (num 0 ++ []))) =
    .call ⟨List.replicate 4095 97, 17, .spatial []⟩ :=
  C67_long_name_is_split _ (fun h => absurd (List.eq_of_mem_replicate h) (by decide)) (fun h => absurd (List.eq_of_mem_replicate h) (by decide))
    List.length_replicate 17 (by decide)

end Couchstore.Props
