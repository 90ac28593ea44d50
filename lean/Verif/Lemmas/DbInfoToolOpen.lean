import Verif.Lemmas.DbInfoTool

/-! Lemmas for the program that prints headers: opening the file after a crash. -/

namespace Couchstore

variable {E : Env} {getKey : KeyGetter}

theorem infoFlags_ok (legacy : Bool) : infoFlags.Ok legacy :=
  ⟨(fun h => nomatch h.2), (fun h => nomatch h), (fun h => nomatch h), by decide⟩

/-- What is found in the file after a crash. -/
theorem vault_found {cfg : Cfg} {d0 img : Bytes} {l : List Event}
    {commits done cands : List Commit} {pos : Nat} (V : Vault E getKey cfg d0 l commits done cands pos)
    (hi : CrashImage d0 l img) {flags : OpenFlags} {ctx : Bytes} {db' : Db} {f' : File}
    (h : openDb E flags getKey ctx (crashedFile img []) = .ok db' f') : db'.file.faults = [] ∧ db'.file.disk = img ∧
      (∀ c, commits.find? (fun c => c.pos = db'.header.position) = some c → db'.header.diskVersion = c.db.header.diskVersion) ∧
      ∀ P, P % blockSize = 0 → db'.header.position < P → img[P]? ≠ some btHeader := by
  obtain ⟨P0, t1, t2, t3, t4⟩ := V.tip
  have himg0 : img[P0]? = some btHeader := by rw [t2.image hi, t3]
  have hlen : 0 < img.length := by
    have := (List.getElem?_eq_some_iff.mp himg0).1
    omega
  have S : Safe E getKey cfg img [] commits done pos := V.safe.image hi (Or.inl (Nat.le_refl _)) rfl rfl V.safe.thr
  have hs := openBody_spec E flags getKey ctx (crashedFile img []) hlen S
  unfold openDb at h
  split at h
  · cases h
  split at h
  · cases h
  unfold Sp at hs
  cases hp : openBody E flags getKey ctx (newHandle flags (crashedFile img [])) with
  | error e d => rw [hp] at h; cases h
  | ok a d =>
    rw [hp] at h hs
    obtain ⟨P, hh, q, c, O⟩ := hs
    cases h
    have hhdr : db'.header = hh := by rw [O.eq]
    have hpos : db'.header.position = P := by
      have : (diskHeader hh P).position = P := rfl
      rw [O.snap.hdr.self] at this
      rw [hhdr]
      exact this
    refine ⟨List.suffix_nil.mp O.faults, by rw [O.eq]; rfl, ?_, ?_⟩
    · intro c' hc'
      rw [hpos, O.found] at hc'
      cases hc'
      rw [hhdr]
      exact O.snap.ver
    · intro P' h1 h2
      rw [hpos] at h2
      exact O.newest rfl P' h1 h2

/-- The program opens the file at the newest commit. -/
theorem info_open (L : E.Laws) {s s' : Sys} (hs : History E getKey s) (hop : s' = s ∨ Op E getKey s s') (hc : s.cands ≠ [])
    {log : List Event} (h1 : s.db.file.log <:+ log) (h2 : log <:+ s'.db.file.log) {img : Bytes} (hi : CrashImage s.base log img) :
    ∃ s2 c, openDb E infoFlags getKey [] (crashedFile img []) = .ok s2.db s2.db.file ∧ (c ∈ s.cands ∨ c ∈ s'.cands) ∧
      AtCommit E getKey s2 c ∧ s2.commits = s'.commits ∧ (∀ d ∈ s.done, d ∈ s2.done) ∧
      (∀ P, P % blockSize = 0 → s2.db.header.position < P → s2.db.file.disk[P]? ≠ some btHeader) := by
  have H := hs.hist L
  have main : s' = s ∨ Op E getKey s s' → ∀ (pos : Nat) (cands : List Commit), Vault E getKey s.db.file.cfg s.base log s'.commits s.done cands pos →
      Nav s'.commits s'.db → (∀ c ∈ cands, c ∈ s.cands ∨ c ∈ s'.cands) →
    ∃ s2 c, openDb E infoFlags getKey [] (crashedFile img []) = .ok s2.db s2.db.file ∧ (c ∈ s.cands ∨ c ∈ s'.cands) ∧
      AtCommit E getKey s2 c ∧ s2.commits = s'.commits ∧ (∀ d ∈ s.done, d ∈ s2.done) ∧
      (∀ P, P % blockSize = 0 → s2.db.header.position < P → s2.db.file.disk[P]? ≠ some btHeader) := by
    intro hop pos cands V nav hm
    obtain ⟨db, k1, c, k2, k3, k4⟩ := V.openDb L hi infoFlags [] (infoFlags_ok _) nav.list
    obtain ⟨v1, v2, v3, v4⟩ := vault_found V hi k1
    have hh := History.crash infoFlags [] hs hop hc h1 h2 hi (infoFlags_ok false).thr k1
    refine ⟨_, c, k1, hm c k2, ⟨hh.hist L, v1, k4, k3, v3 c k4⟩, rfl, fun d hd => List.mem_append_right _ hd, ?_⟩
    intro P p1 p2
    show db.file.disk[P]? ≠ _
    rw [v2]
    exact v4 P p1 p2
  rcases hop with rfl | hop'
  · have : log = s'.db.file.log := h2.eq_of_length (Nat.le_antisymm h2.length_le h1.length_le)
    subst this
    exact main (Or.inl rfl) _ _ (H.vault hc) H.nav (fun c hc => Or.inl hc)
  · obtain ⟨pos, cands, V, hm⟩ := Op.mid L H hop' hc h1 h2
    exact main (Or.inr hop') _ _ V (hop'.hist L H).nav hm

/-- The program opens the file at the header of a successful commit. -/
theorem info_seek (L : E.Laws) {s : Sys} {c d : Commit} (A : AtCommit E getKey s c) (hd : d ∈ s.done) :
    ∃ db', seekOffset E d.pos s.db = .ok () db' ∧ AtCommit E getKey { s with db := db' } d := by
  have H := A.hist
  obtain ⟨o1, o2, o3, o4⟩ := H.mark hd
  have hsp := seekOffset_spec H.movable d.pos
  unfold Sp at hsp
  cases hp : seekOffset E d.pos s.db with
  | ok a db' =>
    rw [hp] at hsp
    obtain ⟨c2, k⟩ := hsp
    have := k.found
    rw [o1] at this
    cases this
    exact ⟨db', rfl, k.at L H A.calm⟩
  | error e db' =>
    rw [hp] at hsp
    exact absurd ⟨o2, o4, o3⟩ (hsp.2 A.calm)

theorem backward_run (L : E.Laws) {s : Sys} {c : Commit} (A : AtCommit E getKey s c) :
    ∃ cs ls, headerLines E .backward (s.db.file.pos / blockSize + 2) s.db = (ls, true) ∧ Lines (c :: cs) ls ∧
      (∀ d ∈ c :: cs, d ∈ s.commits) ∧ (c :: cs).Pairwise (fun a b => b.pos < a.pos) ∧
      (∀ d, Ancestor s.done c d → d ∈ c :: cs) ∧
      ((∀ d ∈ s.commits, d.db.header.diskVersion < 14) → ∀ d ∈ s.done, d.pos ≤ c.pos → d ∈ c :: cs) := by
  refine lines_backward L _ s c A ?_
  have := A.hist.nav.lt
  have hbs : blockSize = 4096 := rfl
  rw [hbs]
  omega

theorem forward_run (L : E.Laws) {s : Sys} {c : Commit} (A : AtCommit E getKey s c) :
    ∃ cs ls, headerLines E .forward (s.db.file.pos / blockSize + 2) s.db = (ls, true) ∧ Lines (c :: cs) ls ∧
      (∀ d ∈ c :: cs, d ∈ s.commits) ∧ (c :: cs).Pairwise (fun a b => a.pos < b.pos) ∧
      (∀ d ∈ cs, s.db.file.disk[d.pos]? = some btHeader ∧ d.pos % blockSize = 0) ∧
      (∀ d ∈ s.done, c.pos ≤ d.pos → d ∈ c :: cs) := by
  refine lines_forward L _ s c A ?_
  have hbs : blockSize = 4096 := rfl
  rw [hbs]
  omega

theorem Ancestor.mono {done done' : List Commit} (h : ∀ d ∈ done, d ∈ done') {c d : Commit} (a : Ancestor done c d) :
    Ancestor done' c d := by
  induction a with
  | refl => exact .refl
  | step _ hv hm hp ih => exact ih.step hv (h _ hm) hp

end Couchstore
