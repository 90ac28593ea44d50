import Verif.Lemmas.DumpIndex
import Verif.Props.IndexHeader
-- only so that the two are not built at the same time, which takes too much memory
import Verif.Props.TreeDump

/-! C82: the dump of the index file of a view group.

In these theorems there is a group in the file (`GroupAt`), with the ids `ids` and the views `views`, and no raw file operation
fails. -/

namespace Couchstore.Props
open Couchstore

/-- For each view, one row for each key that a document has emitted, in the order of the index, with the key and the value; and
the number of rows of the last view.  Missing of the full claim: the header is within the last block of the file (for others see
`C82_long_header_is_missed`), each view has entries (`C82_empty_view_is_undefined`), and each document has emitted
one value for a key (`C82_values_run_together`); the documents are not named, and the number is that of one view only. -/
theorem C82_rows_partial {D : Type} [LinearOrder D] (e : CollateEnv D) (round : Rat → D) (ucol : Bytes → Bytes → Int)
    (H : e.Ok round ucol) (E : Env) (L : E.Laws) (kmax : Nat) (f : File) (pos : Nat) (h : IndexHeader) (ids : List KV)
    (views : List View) (w : f.WF) (hf : f.faults = []) (hg : GroupAt E kmax f pos h ids views)
    (hpos : pos % blockSize = 0) (hlast : f.disk.length ≤ pos + blockSize)
    (hv : ∀ v ∈ views, v.Ok e ∧ SortedKV (viewBtreeCmp e) (v.emits.map Emit.kv) ∧ v.emits ≠ [] ∧ ∀ m ∈ v.emits, m.values.length = 1) :
    dumpIndexMain E e f =
      .done (views.map fun v => v.emits.map Emit.row) ((views.getLast?.map fun v => v.emits.length).getD 0) := by
  rw [dumpIndex_views e w hf hg hpos hlast,
    dumpViews_spec E L e round ucol H f.atEnd ⟨Nat.le_refl _, w.crc⟩ hf views h.views [] 0 hg.views fun v hm => by
      obtain ⟨h1, h2, h3, h4⟩ := hv v hm
      exact ⟨h1, h2, h3, fun m hm' hx => by have := h4 m hm'; rw [hx] at this; cases this⟩]
  rw [List.nil_append]
  congr 1
  refine List.map_congr_left fun v hm => List.map_congr_left fun m hm' => ?_
  obtain ⟨x, hx⟩ := List.length_eq_one_iff.mp ((hv v hm).2.2.2 m hm')
  unfold Emit.row
  rw [hx]
  simp [encodeSized]

/-- If a document has emitted several values for a key, they are printed one after the other, each but the first with its length,
in three bytes, before it. -/
theorem C82_values_run_together {D : Type} [LinearOrder D] (e : CollateEnv D) (round : Rat → D) (ucol : Bytes → Bytes → Int)
    (H : e.Ok round ucol) (E : Env) (L : E.Laws) (kmax : Nat) (f : File) (pos : Nat) (h : IndexHeader) (ids : List KV)
    (views : List View) (w : f.WF) (hf : f.faults = []) (hg : GroupAt E kmax f pos h ids views)
    (hpos : pos % blockSize = 0) (hlast : f.disk.length ≤ pos + blockSize)
    (hv : ∀ v ∈ views, v.Ok e ∧ SortedKV (viewBtreeCmp e) (v.emits.map Emit.kv) ∧ v.emits ≠ [] ∧ ∀ m ∈ v.emits, m.values ≠ []) :
    dumpIndexMain E e f =
      .done (views.map fun v => v.emits.map Emit.gluedRow) ((views.getLast?.map fun v => v.emits.length).getD 0) := by
  rw [dumpIndex_views e w hf hg hpos hlast,
    dumpViews_spec E L e round ucol H f.atEnd ⟨Nat.le_refl _, w.crc⟩ hf views h.views [] 0 hg.views hv]
  rfl

/-- If a view has no entries, for instance because nothing was emitted for it yet, a null pointer is dereferenced. -/
theorem C82_empty_view_is_undefined {D : Type} [LinearOrder D] (e : CollateEnv D) (round : Rat → D) (ucol : Bytes → Bytes → Int)
    (H : e.Ok round ucol) (E : Env) (L : E.Laws) (kmax : Nat) (f : File) (pos : Nat) (h : IndexHeader) (ids : List KV)
    (views : List View) (w : f.WF) (hf : f.faults = []) (hg : GroupAt E kmax f pos h ids views)
    (hpos : pos % blockSize = 0) (hlast : f.disk.length ≤ pos + blockSize)
    (hv : ∀ v ∈ views, v.Ok e ∧ SortedKV (viewBtreeCmp e) (v.emits.map Emit.kv) ∧ ∀ m ∈ v.emits, m.values ≠ [])
    (hempty : ∃ v ∈ views, v.emits = []) :
    dumpIndexMain E e f = .undefined := by
  rw [dumpIndex_views e w hf hg hpos hlast]
  exact dumpViews_empty E L e round ucol H f.atEnd ⟨Nat.le_refl _, w.crc⟩ hf views h.views [] 0 hg.views hv hempty

/-- A header that was written in more than one block is missed: what the search finds is a block after its beginning, since all of
its blocks are marked in the same way. -/
theorem C82_long_header_is_missed (E : Env) (junk : Bytes) (h : IndexHeader) (f g : File) (w : f.WF) (pos : Nat)
    (hw : writeViewGroupHeader E junk h f = .ok pos g) (hf : g.faults = []) (hlong : pos + blockSize + 1 < g.pos) :
    ∃ p, pos < p ∧ findViewHeader .noHeader ((g.disk.length - 2) / blockSize) g.atEnd = .ok p g.atEnd := by
  obtain ⟨rfl, -, -, w', -, -, hm⟩ := (writeHeader_spec E btHeader (encodeIndexHeader E junk h) f w).ok hw
  have hmod := alignToNextBlock_mod f.pos
  generalize alignToNextBlock f.pos = pos at *
  have hn : pos / blockSize * blockSize = pos := Nat.div_mul_cancel (Nat.dvd_of_mod_eq_zero hmod)
  have hb : blockSize = 4096 := rfl
  have hn1 : (pos / blockSize + 1) * blockSize = pos + blockSize := by rw [Nat.succ_mul, hn]
  have hle := w'.pos_le
  obtain ⟨k, k1, k2⟩ := findViewHeader_later (f := g.atEnd) hf (n := pos / blockSize + 1) (m := (g.disk.length - 2) / blockSize) .noHeader
    ((Nat.le_div_iff_mul_le (by omega)).mpr (by rw [hn1]; omega))
    (by rw [hn1]; exact hm _ (by omega) (by omega) (by rw [hb] at hmod ⊢; omega))
  refine ⟨_, ?_, k2⟩
  have : (pos / blockSize + 1) * blockSize ≤ k * blockSize := Nat.mul_le_mul_right _ k1
  rw [hn1] at this
  omega

/-! ### Samples -/

/-- The small view with other entries of the sample. -/
def shownView (ms : List Emit) : View := smallView.having ms

/-- A group with one view, written to a new file from an empty group. -/
def shownGroup (ms : List Emit) : EStateM.Result Err File Nat :=
  match writeViewGroupHeader Env.toy [] sampleHeader File.empty with
  | .error er g => .error er g
  | .ok pos old => buildViewGroup Env.toy (exactEnv true) viewKvThr viewKpThr [] old pos smallIds
      ([shownView ms].map fun v => (v.reducers, v.emits.map Emit.kv)) File.empty

/-- What is to be known of the run. -/
def shownRun (ms : List Emit) : Bool :=
  match shownGroup ms with
  | .error _ _ => false
  | .ok p f => decide (f.faults = [] ∧ f.disk.length ≤ 2 ^ 48 ∧ p % blockSize = 0 ∧ f.disk.length ≤ p + blockSize) &&
    decide ((ms.map Emit.kv).Pairwise fun a b => viewBtreeCmp (exactEnv true) a.1 b.1 = .lt)

theorem shownRuns : shownRun sampleEmits = true ∧ shownRun (sampleEmits.drop 1) = true ∧ shownRun [] = true := by
  decide +kernel

/-- The hypotheses of the theorems are met by that group. -/
theorem shownGroup_at {ms : List Emit} (hsub : ∀ m ∈ ms, m ∈ sampleEmits) (hrun : shownRun ms = true) :
    ∃ f pos h, f.WF ∧ f.faults = [] ∧ GroupAt Env.toy 1 f pos h smallIds [shownView ms] ∧ pos % blockSize = 0 ∧
      f.disk.length ≤ pos + blockSize ∧
      ∀ v ∈ [shownView ms], v.Ok (exactEnv true) ∧ SortedKV (viewBtreeCmp (exactEnv true)) (v.emits.map Emit.kv) := by
  unfold shownRun shownGroup at hrun
  cases e1 : writeViewGroupHeader Env.toy [] sampleHeader File.empty with
  | error er g => rw [e1] at hrun; exact (Bool.false_ne_true hrun).elim
  | ok pos old =>
    rw [e1] at hrun
    dsimp only at hrun
    obtain ⟨w1, hh⟩ := sampleHeader_written pos old e1
    cases e2 : buildViewGroup Env.toy (exactEnv true) viewKvThr viewKpThr [] old pos smallIds
        ([shownView ms].map fun v => (v.reducers, v.emits.map Emit.kv)) File.empty with
    | error er g => rw [e2] at hrun; exact (Bool.false_ne_true hrun).elim
    | ok p f =>
      rw [e2] at hrun
      simp only [Bool.and_eq_true, decide_eq_true_eq] at hrun
      obtain ⟨⟨f1, f2, f3, f4⟩, f5⟩ := hrun
      have hok : (shownView ms).Ok (exactEnv true) := smallView_ok
      obtain ⟨w2, hb⟩ := (C45_build_group (exactEnv true) _ _ (exactEnv_ok true) Env.toy Env.toy_laws toy_deflate_ne viewKvThr
        viewKpThr (by decide) [] old File.empty w1.crc ⟨by decide, by decide⟩ pos sampleHeader hh
        (sampleHeader_size sampleHeader rfl rfl) 1 (by decide) smallIds smallIds_valid [shownView ms] rfl
        (by
          intro v hv
          rw [List.mem_singleton] at hv
          subst hv
          exact ⟨hok, fun m hm => smallEmits_keys m (hsub m hm), fun m hm => sampleEmits_fits m (hsub m hm)⟩)
        (by
          intro v hv
          rw [List.mem_singleton] at hv
          subst hv
          show reductionMax smallView.specs + 12 < 2 ^ 16
          decide)).1 p f e2
      obtain ⟨h, -, hg⟩ := hb f2
      refine ⟨f, p, h, w2, f1, hg, f3, f4, fun v hv => ?_⟩
      rw [List.mem_singleton] at hv
      subst hv
      exact ⟨hok, f5⟩

/-- Two documents that have emitted a value each: the rows have the key and the value. -/
example : ∃ f, dumpIndexMain Env.toy (exactEnv true) f = .done [[⟨Json.null.text, intText 100⟩, ⟨Json.null.text, intText 7⟩]] 2 := by
  obtain ⟨f, pos, h, w, hf, hg, hp, hl, hv⟩ := shownGroup_at (fun m hm => List.mem_of_mem_drop hm) shownRuns.2.1
  refine ⟨f, (C82_rows_partial (exactEnv true) _ _ (exactEnv_ok true) Env.toy Env.toy_laws 1 f pos h smallIds _ w hf hg hp hl ?_)⟩
  intro v hx
  obtain ⟨h1, h2⟩ := hv v hx
  rw [List.mem_singleton] at hx
  subst hx
  exact ⟨h1, h2, by show sampleEmits.drop 1 ≠ []; simp [sampleEmits], by show ∀ m ∈ sampleEmits.drop 1, _; simp [sampleEmits]⟩

/-- With a document that has emitted 20 and -3: there are three bytes for the length of the second number before it. -/
example : ∃ f, dumpIndexMain Env.toy (exactEnv true) f =
    .done [[⟨Json.null.text, intText 20 ++ ([0, 0, 2] ++ intText (-3))⟩, ⟨Json.null.text, intText 100⟩, ⟨Json.null.text, intText 7⟩]] 3 := by
  obtain ⟨f, pos, h, w, hf, hg, hp, hl, hv⟩ := shownGroup_at (fun m hm => hm) shownRuns.1
  refine ⟨f, (C82_values_run_together (exactEnv true) _ _ (exactEnv_ok true) Env.toy Env.toy_laws 1 f pos h smallIds _ w hf hg hp hl
    ?_).trans (by decide +kernel)⟩
  intro v hx
  obtain ⟨h1, h2⟩ := hv v hx
  rw [List.mem_singleton] at hx
  subst hx
  exact ⟨h1, h2, by show sampleEmits ≠ []; simp [sampleEmits], by show ∀ m ∈ sampleEmits, _; simp [sampleEmits]⟩

/-- Nothing was emitted. -/
example : ∃ f, dumpIndexMain Env.toy (exactEnv true) f = .undefined := by
  obtain ⟨f, pos, h, w, hf, hg, hp, hl, hv⟩ := shownGroup_at (ms := []) (fun m hm => nomatch hm) shownRuns.2.2
  exact ⟨f, C82_empty_view_is_undefined (exactEnv true) _ _ (exactEnv_ok true) Env.toy Env.toy_laws 1 f pos h smallIds _ w hf hg hp hl
    (fun v hx => ⟨(hv v hx).1, (hv v hx).2, by
      rw [List.mem_singleton] at hx
      subst hx
      exact fun m hm => nomatch hm⟩) ⟨_, List.mem_singleton_self _, rfl⟩⟩

/-- A header with a long reduction of a view. -/
def longHeader : IndexHeader := { sampleHeader with views := [some ⟨[], 4096, List.replicate 4000 0, 100⟩] }

/-- It takes two blocks, and the search finds the second one. -/
example : ∃ pos g, writeViewGroupHeader Env.toy [] longHeader File.empty = .ok pos g ∧
    ∃ p, pos < p ∧ findViewHeader .noHeader ((g.disk.length - 2) / blockSize) g.atEnd = .ok p g.atEnd := by
  have run : (match writeViewGroupHeader Env.toy [] longHeader File.empty with
    | .error _ _ => false
    | .ok pos g => decide (g.faults = [] ∧ pos + blockSize + 1 < g.pos)) = true := by decide +kernel
  cases e1 : writeViewGroupHeader Env.toy [] longHeader File.empty with
  | error er g => rw [e1] at run; exact (Bool.false_ne_true run).elim
  | ok pos g =>
    rw [e1] at run
    simp only [decide_eq_true_eq] at run
    exact ⟨pos, g, rfl, C82_long_header_is_missed Env.toy [] longHeader File.empty g ⟨by decide, by decide⟩ pos e1 run.1 run.2⟩

end Couchstore.Props
