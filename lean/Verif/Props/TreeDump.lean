import Verif.Lemmas.TreeDump
import Verif.Props.Walk
-- only so that the two are not built at the same time, which takes too much memory
import Verif.Props.DumpLocal

/-! C81: the dump of a tree.  `showId` is another library, of which nothing is assumed. -/

namespace Couchstore.Props

/-- The dump of the tree of documents, by sequence number or by name.  There are the list `docs` of all documents, in that order,
and `calls`, which shows a balanced tree over `docs` (`ShownTree`): each node once, before what is below it, with its depth, its
size and its reduction; and each document once, in order and below all its nodes.  A line for each of these is printed, and the
number of documents, and success is reported; no document is said to be corrupt.  (Names with the collection can be asked for
only if all names have one.) -/
theorem C81_tree_of_documents (E : Env) (L : E.Laws) (showId : Bytes → Option Bytes) (ns seq : Bool) (db : Db)
    (hr : Reachable E db) (hf : db.file.faults = [])
    (hn : ns = true → ∀ d, answer (docinfoById E d.id) db = .ok d → showId d.id ≠ none) :
    ∃ docs calls size,
      docs.Pairwise (fun a b => if seq then a.dbSeq < b.dbSeq else a.id < b.id) ∧
      (∀ d, d ∈ docs ↔ answer (docinfoById E d.id) db = .ok d) ∧
      ShownTree (TreeReduction seq) (fun _ => true) (fun _ => true) id size docs calls ∧
      dumpTree E showId ns (if seq then .bySeq else .byId) db =
        .done (calls.map (TreeLine.of (treeName showId ns) seq)) docs.length := by
  have hwalk : ∀ mode : TreeMode, WalkTolerantOk ⟨true, false, false⟩ (visitNode showId ns mode) db :=
    fun mode _ => ⟨fun u d x => visitNode_none u d x, hf⟩
  have hsel : ∀ d : DocInfo, (⟨true, false, false⟩ : ScanOpts).selects d = true := fun d => by simp [ScanOpts.selects]
  have hcor : ∀ d, answer (docinfoById E d.id) db = .ok d → 0 < d.bp ∨ (d.bp = 0 ∧ d.deleted = true) := by
    intro d h
    obtain ⟨⟨ids, seqs, locs, inv⟩, hd⟩ := hr.good L
    obtain ⟨e, he, rfl⟩ := List.mem_map.mp ((known_iff E L inv hd d).mp h)
    have := not_corrupt (o := ⟨false, false, false⟩) inv he
    by_cases hb : e.info.bp = 0
    · refine Or.inr ⟨hb, ?_⟩
      cases hx : e.info.deleted with
      | true => rfl
      | false => exact absurd ⟨hb, hx, rfl⟩ this
    · exact Or.inl (Nat.pos_of_ne_zero hb)
  cases seq with
  | true =>
    obtain ⟨docs, calls, k1, k2, k3, k4⟩ := C51_walk_seq E L db hr 0 (by decide) ⟨true, false, false⟩
    have hcd : callDocs calls = docs := by
      rw [callDocs_tree (fun x => by simp) hsel k3, List.map_id]
    have hst : (fun d : DocInfo => decide (0 ≤ d.dbSeq)) = fun _ => true := by funext d; simp
    have hse : (⟨true, false, false⟩ : ScanOpts).selects = fun _ => true := funext hsel
    rw [hst, hse] at k3
    obtain ⟨r, db', h1, h2⟩ := k4 TreeState (visitNode showId ns .bySeq) ⟨[], 0, false⟩ (hwalk _)
    refine ⟨docs, calls, _, k1, k2, k3, ?_⟩
    have hv := callAll_visit (showId := showId) (ns := ns) (mode := .bySeq) calls ⟨[], 0, false⟩ rfl (fun d hd => by
      rw [hcd] at hd
      exact Or.inr ⟨hcor d ((k2 d).mp hd), fun h => hn h d ((k2 d).mp hd)⟩)
    rcases h2 with h2 | ⟨h2, -⟩
    · rw [hv, hcd] at h2
      subst h2
      simp only [dumpTree, h1, if_true, treeEnd]
      simp
    · exact absurd hf h2
  | false =>
    obtain ⟨docs, calls, k1, k2, k3, k4⟩ := C51_walk_id E L db hr none ⟨true, false, false⟩
    have hcd : callDocs calls = docs := by
      rw [callDocs_tree (fun x => by simp) hsel k3, List.map_id]
    have hst : (fun d : DocInfo => decide (∀ s, (none : Option Bytes) = some s → s ≤ d.id)) = fun _ => true := by funext d; simp
    have hse : (⟨true, false, false⟩ : ScanOpts).selects = fun _ => true := funext hsel
    rw [hst, hse] at k3
    obtain ⟨r, db', h1, h2⟩ := k4 TreeState (visitNode showId ns .byId) ⟨[], 0, false⟩ (hwalk _)
    refine ⟨docs, calls, _, k1, k2, k3, ?_⟩
    have hv := callAll_visit (showId := showId) (ns := ns) (mode := .byId) calls ⟨[], 0, false⟩ rfl (fun d hd => by
      rw [hcd] at hd
      exact Or.inr ⟨hcor d ((k2 d).mp hd), fun h => hn h d ((k2 d).mp hd)⟩)
    rcases h2 with h2 | ⟨h2, -⟩
    · rw [hv, hcd] at h2
      subst h2
      show dumpTree E showId ns .byId db = _
      simp only [dumpTree, h1, treeEnd]
      simp
    · exact absurd hf h2

/-- The same for the tree of local documents, which has no reductions; names are printed as they are. -/
theorem C81_tree_of_local_documents (E : Env) (L : E.Laws) (showId : Bytes → Option Bytes) (ns : Bool) (db : Db)
    (hr : Reachable E db) (hf : db.file.faults = []) :
    ∃ docs calls size,
      docs.Pairwise (fun a b : LocalDoc => a.id < b.id) ∧
      (∀ x, x ∈ docs ↔ answer (openLocalDocument E x.id) db = .ok x) ∧
      ShownTree (fun _ r => r = []) (fun _ => true) (fun _ => true) localInfo size docs calls ∧
      dumpTree E showId ns .locals db = .done (calls.map (TreeLine.of id false)) docs.length := by
  have hsel : ∀ x : LocalDoc, (⟨true, false, false⟩ : ScanOpts).selects (localInfo x) = true := fun d => by simp [ScanOpts.selects]
  obtain ⟨docs, calls, k1, k2, k3, k4⟩ := C51_walk_local E L db hr none ⟨true, false, false⟩
  have hcd : callDocs calls = docs.map localInfo := callDocs_tree (fun x => by simp) hsel k3
  have hst : (fun x : LocalDoc => decide (∀ s, (none : Option Bytes) = some s → s ≤ x.id)) = fun _ => true := by funext d; simp
  have hse : (fun x : LocalDoc => (⟨true, false, false⟩ : ScanOpts).selects (localInfo x)) = fun _ => true := funext hsel
  rw [hst, hse] at k3
  obtain ⟨r, db', h1, h2⟩ := k4 TreeState (visitNode showId ns .locals) ⟨[], 0, false⟩
    (fun _ => ⟨fun u d x => visitNode_none u d x, hf⟩)
  refine ⟨docs, calls, _, k1, k2, k3, ?_⟩
  have hv := callAll_visit (showId := showId) (ns := ns) (mode := .locals) calls ⟨[], 0, false⟩ rfl (fun d hd => Or.inl rfl)
  rcases h2 with h2 | ⟨h2, -⟩
  · rw [hv, hcd] at h2
    subst h2
    simp only [dumpTree, h1, treeEnd]
    simp
  · exact absurd hf h2

/-- The trees of the sample: a root and two leaves with four documents, two of them deleted; and a leaf with two local documents. -/
example : Reachable Env.toy sampleDb2 ∧ Reachable Env.toy sampleDb3 ∧
    sampleDb2.file.faults = [] ∧ sampleDb3.file.faults = [] ∧
    (match dumpTree Env.toy (fun b => some (0 :: b)) true .bySeq sampleDb2 with
      | .done ls n => (ls.length, n)
      | _ => (0, 0)) = (7, 4) ∧
    (match dumpTree Env.toy (fun b => some (0 :: b)) true .byId sampleDb2 with
      | .done ls n => (ls.length, n)
      | _ => (0, 0)) = (7, 4) ∧
    dumpTree Env.toy (fun _ => none) true .locals sampleDb3 =
      .done [.node 0 27 [], .doc 1 false 1 0 none [95, 1], .doc 1 false 2 0 none [95, 2]] 2 := by
  obtain ⟨db0, h0, hs⟩ := sampleReach2
  exact ⟨⟨db0, h0, hs⟩, ⟨db0, h0, .step hs (.saveLocals _ sampleLocals_ok)⟩, by decide +kernel, by decide +kernel,
    by decide +kernel, by decide +kernel, by decide +kernel⟩

/-- The program, on a file that a crash has left: it dumps the trees of the newest commit.  Here the machine crashes at any time after
the first successful commit (or does not crash), and `img` is what is left of the file. -/
theorem C81_tree_of_file (E : Env) (L : E.Laws) (showId : Bytes → Option Bytes) (ns seq : Bool)
    (getKey : KeyGetter) (s s' : Sys) (hs : History E getKey s)
    (hop : s' = s ∨ Op E getKey s s') (hc : s.cands ≠ [])
    (log : List Event) (h1 : s.db.file.log <:+ log) (h2 : log <:+ s'.db.file.log)
    (img : Bytes) (hi : CrashImage s.base log img) :
    ∃ c, (c ∈ s.cands ∨ c ∈ s'.cands) ∧
      ((ns = true → ∀ d, answer (docinfoById E d.id) c.db = .ok d → showId d.id ≠ none) →
        ∃ docs calls size,
          docs.Pairwise (fun a b => if seq then a.dbSeq < b.dbSeq else a.id < b.id) ∧
          (∀ d, d ∈ docs ↔ answer (docinfoById E d.id) c.db = .ok d) ∧
          ShownTree (TreeReduction seq) (fun _ => true) (fun _ => true) id size docs calls ∧
          dumpTreeMain E showId ns (if seq then .bySeq else .byId) getKey none (crashedFile img []) =
            .done (calls.map (TreeLine.of (treeName showId ns) seq)) docs.length) ∧
      ∃ docs calls size,
        docs.Pairwise (fun a b : LocalDoc => a.id < b.id) ∧
        (∀ x, x ∈ docs ↔ answer (openLocalDocument E x.id) c.db = .ok x) ∧
        ShownTree (fun _ r => r = []) (fun _ => true) (fun _ => true) localInfo size docs calls ∧
        dumpTreeMain E showId ns .locals getKey none (crashedFile img []) = .done (calls.map (TreeLine.of id false)) docs.length := by
  obtain ⟨s2, c, k1, k2, A, -, -, -⟩ := info_open L hs hop hc h1 h2 hi
  have hr : Reachable E s2.db :=
    ⟨s2.db, Or.inr ⟨getKey, _, History.crash infoFlags [] hs hop hc h1 h2 hi (infoFlags_ok false).thr k1, rfl⟩, .refl⟩
  have hdoc : ∀ id, answer (docinfoById E id) c.db = answer (docinfoById E id) s2.db := fun id =>
    (Reply.doc.inj (A.shows_.answers (.docinfo id) trivial)).symm
  have hloc : ∀ id, answer (openLocalDocument E id) c.db = answer (openLocalDocument E id) s2.db := fun id =>
    (Reply.loc.inj (A.shows_.answers (.localDoc id) trivial)).symm
  have he : ∀ mode, dumpTreeMain E showId ns mode getKey none (crashedFile img []) = dumpTree E showId ns mode s2.db := by
    intro mode
    unfold dumpTreeMain openAtOffset
    rw [k1]
  refine ⟨c, k2, ?_⟩
  simp only [hdoc, hloc, he]
  exact ⟨fun hn => C81_tree_of_documents E L showId ns seq s2.db hr A.calm hn,
    C81_tree_of_local_documents E L showId ns s2.db hr A.calm⟩

/-- The newest commit of the sample has two documents, whose names have a collection. -/
example : ∃ (docs : List DocInfo) (ls : List TreeLine), docs.length = 2 ∧ dumpTreeMain Env.toy dumpLib.showId true .byId sampleGetKey none
    (crashedFile (replay [] hdb4.file.log) []) = .done ls docs.length := by
  obtain ⟨c, k1, k2, -⟩ := C81_tree_of_file Env.toy Env.toy_laws dumpLib.showId true false sampleGetKey
    (twoCommits4 hdb0 hdb1 hdb2 hdb3 hdb4) _ sampleHist4 (Or.inl rfl) (by simp [twoCommits4])
    hdb4.file.log (List.suffix_refl _) (List.suffix_refl _) (replay [] hdb4.file.log) (crashImage_replay _ _)
  obtain rfl : c = Commit.of hdb3 2000 := by simpa [twoCommits4] using k1
  have hr : Reachable Env.toy hdb3 := ⟨hdb3, Or.inr ⟨_, _, sampleHist3, rfl⟩, .refl⟩
  obtain ⟨-, -, o3, o4⟩ := C69_order Env.toy Env.toy_laws hdb3 hr
  obtain ⟨docs, calls, size, g1, g2, -, g4⟩ := k2 fun _ d hd =>
    (hdb_printable ⟨false, false, true⟩ (Or.inr (Or.inl rfl)) d ((o3 d).mpr hd)).name rfl
  refine ⟨docs, _, ?_, g4⟩
  have hp : docs.Perm (dumped Env.toy hdb3 .byId) := by
    refine (List.perm_ext_iff_of_nodup ?_ ?_).mpr fun d => (g2 d).trans (o3 d).symm
    · exact g1.imp fun h e => absurd (e ▸ h) (List.lt_irrefl _)
    · exact o4.imp fun h e => absurd (e ▸ h) (List.lt_irrefl _)
  rw [hp.length_eq]
  decide +kernel

/-- For a file that cannot be opened a failure is reported, and nothing is dumped. -/
theorem C81_unreadable_file (E : Env) (showId : Bytes → Option Bytes) (ns : Bool) (mode : TreeMode) (getKey : KeyGetter)
    (offset : Option Nat) (f g : File) (er : Err) (h : openDb E infoFlags getKey [] f = .error er g) :
    dumpTreeMain E showId ns mode getKey offset f = .failed [] := by
  unfold dumpTreeMain openAtOffset
  rw [h]

example : dumpTreeMain Env.toy (fun _ => none) false .byId none none File.empty = .failed [] := by
  have run : (match openDb Env.toy infoFlags none [] File.empty with
    | .error _ _ => true
    | .ok _ _ => false) = true := by decide +kernel
  cases e : openDb Env.toy infoFlags none [] File.empty with
  | ok db g => rw [e] at run; cases run
  | error er g => exact C81_unreadable_file Env.toy _ _ _ none none File.empty g er e

end Couchstore.Props
