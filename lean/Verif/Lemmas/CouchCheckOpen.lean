import Verif.Lemmas.History
import Verif.Lemmas.CouchCheckPass

/-! Lemmas for the program that checks files: the handle of a file that was opened after a crash. -/

namespace Couchstore

/-- No raw operation has failed while the file was opened after a crash. -/
theorem vault_calm {E : Env} {getKey : KeyGetter} {cfg : Cfg} {d0 img : Bytes} {l : List Event}
    {commits done cands : List Commit} {pos : Nat} (V : Vault E getKey cfg d0 l commits done cands pos)
    (hi : CrashImage d0 l img) {flags : OpenFlags} {ctx : Bytes} {db' : Db} {f' : File}
    (h : openDb E flags getKey ctx (crashedFile img []) = .ok db' f') : db'.file.faults = [] := by
  obtain ⟨P0, t1, t2, t3, t4⟩ := V.tip
  have himg0 : img[P0]? = some btHeader := by rw [t2.image hi, t3]
  have hlen : 0 < img.length := by
    have := (List.getElem?_eq_some_iff.mp himg0).1
    omega
  have S : Safe E getKey cfg img [] commits done pos := V.safe.image hi (Or.inl (Nat.le_refl _)) rfl rfl V.safe.thr
  have hs := openBody_spec E flags getKey ctx (crashedFile img []) hlen S
  unfold openDb at h
  split at h
  · cases h
  split at h
  · cases h
  unfold Sp at hs
  cases hp : openBody E flags getKey ctx (newHandle flags (crashedFile img [])) with
  | error e d => rw [hp] at h; cases h
  | ok a d =>
    rw [hp] at h hs
    obtain ⟨P, hh, q, c, O⟩ := hs
    cases h
    exact List.suffix_nil.mp O.faults

/-- The same, whatever was going on at the crash. -/
theorem crash_calm {E : Env} (L : E.Laws) {getKey : KeyGetter} {s s' : Sys} (hs : History E getKey s)
    (hop : s' = s ∨ Op E getKey s s') (hc : s.cands ≠ []) {log : List Event} (h1 : s.db.file.log <:+ log)
    (h2 : log <:+ s'.db.file.log) {img : Bytes} (hi : CrashImage s.base log img) {flags : OpenFlags} {ctx : Bytes}
    {db' : Db} {f' : File} (h : openDb E flags getKey ctx (crashedFile img []) = .ok db' f') : db'.file.faults = [] := by
  have H := hs.hist L
  rcases hop with rfl | hop
  · have : log = s'.db.file.log := h2.eq_of_length (Nat.le_antisymm h2.length_le h1.length_le)
    subst this
    exact vault_calm (H.vault hc) hi h
  · obtain ⟨pos, cands, V, hm⟩ := Op.mid L H hop hc h1 h2
    exact vault_calm V hi h

/-- A file is a damaged version of itself. -/
theorem damagedFile_refl (E : Env) (f : File) (h : f.faults = []) : DamagedFile E f f := by
  refine ⟨rfl, rfl, h, ?_⟩
  intro p b b' g g' h1 h2
  have he : ({ f with faults := [] } : File) = f := by rw [← h]
  rw [he, h2] at h1
  cases h1
  rfl

end Couchstore
