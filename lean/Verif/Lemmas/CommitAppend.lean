import Verif.Lemmas.History

/-! Commit only appends, whatever the state of the handle. -/

namespace Couchstore

theorem dbWriteHeader_frame (E : Env) (t : UInt8) (db : Db) (w : db.file.WF) :
    Sp (dbWriteHeader E t) db
      (fun _ db' => Frame t (alignToNextBlock db.file.pos) db.file db'.file)
      (fun _ db' => Frame t (alignToNextBlock db.file.pos) db.file db'.file) := by
  by_cases hv : goodVersion db.header.diskVersion
  · refine (dbWriteHeader_spec E t db w hv).mono ?_ ?_
    · rintro _ db' ⟨P, rfl, _, h, _⟩
      exact h
    · rintro _ db' ⟨_, h, _⟩
      exact h
  · unfold goodVersion at hv
    simp only [not_or] at hv
    unfold dbWriteHeader
    apply Sp.get_bind
    dsimp only
    rw [if_neg (by simp [hv.1, hv.2.1]), if_neg hv.2.2.1, if_neg hv.2.2.2]
    exact Frame.refl _ _ _

theorem commit_before (E : Env) (ts : Nat) (cb : Nat → Bool) (db : Db) (w : db.file.WF) :
    Sp (commit E ts cb) db
      (fun _ db' => ∀ i, i < db.file.pos → db'.file.disk[i]? = db.file.disk[i]?)
      (fun _ db' => ∀ i, i < db.file.pos → db'.file.disk[i]? = db.file.disk[i]?) := by
  have hge := alignToNextBlock_ge db.file.pos
  have hle := w.pos_le
  have hbody : Sp (commitBody E ts cb) db
      (fun _ db' => ∀ i, i < db.file.pos → db'.file.disk[i]? = db.file.disk[i]?)
      (fun _ db' => ∀ i, i < db.file.pos → db'.file.disk[i]? = db.file.disk[i]?) := by
    unfold commitBody
    apply Sp.get_bind
    dsimp only
    unfold Sp
    rw [bind_ok (setHeader_eq _ db)]
    refine Sp.def (Sp.bind' (dbWriteHeader_frame E btData
      { db with header := { db.header with timestamp := ts, prevHeaderPos := db.header.position } } w) ?_ ?_)
    · intro _ db1 (h1 : Frame btData (alignToNextBlock db.file.pos) db.file db1.file)
      have ha : ∀ i, i < db.file.pos → db1.file.disk[i]? = db.file.disk[i]? :=
        fun i hi => h1.agree i (by omega) (by omega)
      have hl : db.file.pos ≤ db1.file.disk.length := by
        by_cases h : db1.file.disk.length < db.file.pos
        · have := ha _ h
          rw [List.getElem?_eq_none (Nat.le_refl _), List.getElem?_eq_getElem (by omega)] at this
          cases this
        · omega
      refine Sp.bind' (liftF_spec (db := db1) (syncFile_spec db1.file)) ?_ ?_
      · rintro _ db2 ⟨h2, h3, -⟩
        have hd : db2.file.disk = db1.file.disk := by rw [h3]
        have hmark : ∀ (m : List Event) (g : File), MarkRun btHeader (alignToNextBlock db.file.pos) m db2.file g →
            ∀ i, i < db.file.pos → g.disk[i]? = db.file.disk[i]? := by
          intro m g M i hi
          have hl2 : i < db2.file.disk.length := by rw [hd]; omega
          rw [M.disk, ← ha i hi, ← hd]
          refine replay_before (lo := db.file.pos) ?_ hi hl2
          intro off b hb
          obtain ⟨b', h, _⟩ := M.evs _ hb
          cases h
          exact Or.inl hge
        refine (liftF_spec (db := db2) (markLoop_spec cb _ _ 0 db2.file (Nat.lt_succ_self _))).mono ?_ ?_
        · rintro _ db3 ⟨_, m, g0, M, _, h4, _⟩ i hi
          rw [h4]
          exact hmark m g0 M i hi
        · rintro _ db3 ⟨_, ⟨m, M⟩, _⟩ i hi
          exact hmark m _ M i hi
      · rintro _ db2 ⟨_, h3, _⟩ i hi
        rw [h3.disk]
        exact ha i hi
    · intro _ db1 (h1 : Frame btData (alignToNextBlock db.file.pos) db.file db1.file) i hi
      exact h1.agree i (by omega) (by omega)
  unfold commit
  unfold Sp at hbody ⊢
  dsimp only
  cases hp : commitBody E ts cb db with
  | ok a db' => rw [hp] at hbody; exact hbody
  | error e db' => rw [hp] at hbody; exact hbody

end Couchstore
