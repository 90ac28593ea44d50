import Verif.Lemmas.History
import Verif.Spec.DbInfoTool

/-! Lemmas for the program that prints headers. -/

namespace Couchstore

variable {E : Env} {getKey : KeyGetter} {commits done : List Commit}

theorem seekDir_ok {db db' : Db} {d : Direction} (h1 : db.dropped = false) (h2 : ¬ (d = .backward ∧ db.header.position = 0))
    (hx : seekStep E d db = .ok () db') : seekDir E d db = .ok () db' := by
  unfold seekDir
  rw [if_neg (by rw [h1]; simp), if_neg h2, hx]

theorem seekDir_error {db db' : Db} {d : Direction} {e : Err} (h1 : db.dropped = false)
    (h2 : ¬ (d = .backward ∧ db.header.position = 0)) (hx : seekStep E d db = .error e db') :
    ∃ e' d', seekDir E d db = .error e' d' := by
  unfold seekDir
  rw [if_neg (by rw [h1]; simp), if_neg h2, hx]
  dsimp only
  split
  · exact ⟨_, _, rfl⟩
  · unfold reloadOr
    split <;> exact ⟨_, _, rfl⟩

theorem seekBackward_spec {db : Db} (M : Movable E getKey commits done db) (hf : db.file.faults = []) :
    Sp (seekDir E .backward) db
      (fun _ db' => ∃ P c, Landed E commits db db' P c ∧ db'.file.pos = db.file.pos ∧ P < db.header.position ∧
        (db.header.diskVersion < 14 → ∀ P', P' % blockSize = 0 → P < P' → P' < db.header.position →
          db.file.disk[P']? ≠ some btHeader) ∧
        (14 ≤ db.header.diskVersion → db.header.prevHeaderPos < db.header.position →
          db.header.prevHeaderPos ≠ unknownPrevHeaderPos →
          db.file.disk[db.header.prevHeaderPos]? = some btHeader → P = db.header.prevHeaderPos))
      (fun _ _ =>
        (db.header.diskVersion < 14 → ∀ P', P' % blockSize = 0 → P' < db.header.position → db.file.disk[P']? ≠ some btHeader) ∧
        (14 ≤ db.header.diskVersion → db.header.prevHeaderPos < db.header.position →
          db.header.prevHeaderPos ≠ unknownPrevHeaderPos → db.header.prevHeaderPos ≠ noPrevHeaderPos →
          db.file.disk[db.header.prevHeaderPos]? ≠ some btHeader)) := by
  have hw := M.wf.pos_le
  have hlt := M.lt
  have hal := M.aligned
  have hbs : blockSize = 4096 := rfl
  by_cases hb : db.header.position = 0
  · unfold Sp seekDir
    rw [if_neg (by rw [M.opened]; simp), if_pos ⟨rfl, hb⟩]
    exact ⟨fun _ P' _ h => by omega, fun _ h => by omega⟩
  have hs := rewindImpl_spec db M.safe (Nat.le_refl _) M.opened (by omega) M.prev
  unfold Sp at hs ⊢
  cases hx : rewindImpl E db with
  | ok a db' =>
    rw [seekDir_ok M.opened (fun h => hb h.2) (show seekStep E .backward db = _ from hx)]
    rw [hx] at hs
    obtain ⟨P, c, k1, k2, k3, k4, k5⟩ := hs
    refine ⟨P, c, k1, k2, k3, fun hv P' h1 h2 h3 => ?_, k5 hf⟩
    rcases k4 hf with h | h
    · omega
    · exact h P' h1 h2 (by simp only [hbs] at hal h1; omega)
  | error e db' =>
    obtain ⟨e', d', he⟩ := seekDir_error M.opened (fun h => hb h.2) (show seekStep E .backward db = _ from hx)
    rw [hx] at hs
    obtain ⟨k1, k2, k3, k4⟩ := hs
    rw [he]
    refine ⟨fun hv P' h1 h2 => ?_, k4 hf⟩
    rcases k3 hf with h | h | h
    · omega
    · simp only [hbs] at hal h h1; omega
    · exact h P' h1 (by simp only [hbs] at hal h1; omega)

theorem seekForward_spec {db : Db} (M : Movable E getKey commits done db) (hf : db.file.faults = []) :
    Sp (seekDir E .forward) db
      (fun _ db' => ∃ P c, Landed E commits db db' P c ∧ db'.file.pos = db.file.pos ∧ db.header.position < P ∧
        ∀ P', P' % blockSize = 0 → db.header.position < P' → P' < P → db.file.disk[P']? ≠ some btHeader)
      (fun _ _ => ∀ P', P' % blockSize = 0 → db.header.position < P' → P' < db.file.pos → db.file.disk[P']? ≠ some btHeader) := by
  have hw := M.wf.pos_le
  have hs := fastForwardImpl_spec db M.safe (Nat.le_refl _) hw M.opened M.aligned
  unfold Sp at hs ⊢
  cases hx : fastForwardImpl E db with
  | ok a db' =>
    rw [seekDir_ok (d := .forward) M.opened (fun h => nomatch h.1) (show seekStep E .forward db = _ from hx)]
    rw [hx] at hs
    obtain ⟨P, c, k1, k2, k3, k4⟩ := hs
    exact ⟨P, c, k1, k2, k3, k4 hf⟩
  | error e db' =>
    obtain ⟨e', d', he⟩ := seekDir_error (d := .forward) M.opened (fun h => nomatch h.1) (show seekStep E .forward db = _ from hx)
    rw [hx] at hs
    rw [he]
    exact hs.2.2 hf

/-! ### One line -/

/-- The handle is at the header of the commit `c`. -/
structure AtCommit (E : Env) (getKey : KeyGetter) (s : Sys) (c : Commit) : Prop where
  hist : Hist E getKey s
  calm : s.db.file.faults = []
  found : s.commits.find? (fun c => c.pos = s.db.header.position) = some c
  shows_ : Shows E s.db c
  ver : s.db.header.diskVersion = c.db.header.diskVersion

theorem AtCommit.line {s : Sys} {c : Commit} (A : AtCommit E getKey s c) : c.line (headerLine s.db) := by
  obtain ⟨ids, seqs, locs, hh⟩ := A.hist.handle
  have hcalm : s.db.calm = s.db := by
    unfold Db.calm File.calm
    rw [← A.calm]
  have hs := dbInfo_spec E s.db hh.inv
  have hq := A.shows_.answers .info trivial
  unfold Sp at hs
  cases hx : dbInfo s.db with
  | error e d => rw [hx] at hs; exact hs.elim
  | ok i d =>
    rw [hx] at hs
    obtain ⟨hd, h1, -, -, -, -, -, h2⟩ := hs
    refine ⟨A.shows_.position, A.ver, ?_, ?_⟩
    · show (if 13 ≤ s.db.header.diskVersion then some s.db.header.timestamp else none) = _
      rw [A.ver, A.shows_.timestamp]
      split <;> rfl
    · have := Reply.stats.inj hq
      rw [← this]
      unfold answer
      rw [hcalm]
      have hb : (dbInfo >>= fun r => pure (r.lastSequence, r.docCount, r.deletedCount, r.spaceUsed, r.purgeSeq) : DbM _) s.db =
          .ok (i.lastSequence, i.docCount, i.deletedCount, i.spaceUsed, i.purgeSeq) d := by
        show EStateM.bind _ _ s.db = _
        unfold EStateM.bind
        rw [hx]
        rfl
      rw [hb]
      unfold headerLine
      rw [hx]
      dsimp only
      rw [h1, h2]

theorem Landed.at {s : Sys} {c' : Commit} {db' : Db} {P : Nat} (L : E.Laws) (H : Hist E getKey s) (hf : s.db.file.faults = [])
    (k : Landed E s.commits s.db db' P c') : AtCommit E getKey { s with db := db' } c' := by
  obtain ⟨h1, h2, h3, h4⟩ := k.hist L H
  obtain ⟨q, S, -⟩ := k.snap
  have hfl := k.faults
  rw [hf] at hfl
  refine ⟨h1, List.suffix_nil.mp hfl, ?_, k.shows L H, S.ver⟩
  show s.commits.find? (fun c => c.pos = db'.header.position) = some c'
  rw [h3]; exact k.found

/-! ### The loops -/

theorem Ancestor.first {done : List Commit} {c d : Commit} (h : Ancestor done c d) : d = c ∨
    14 ≤ c.db.header.diskVersion ∧ ∃ e ∈ done, e.pos = c.prev ∧ Ancestor done e d := by
  induction h with
  | refl => exact Or.inl rfl
  | step _ hv hm hp ih =>
    refine Or.inr ?_
    rcases ih with rfl | ⟨h1, e, h2, h3, h4⟩
    · exact ⟨hv, _, hm, hp, .refl⟩
    · exact ⟨h1, e, h2, h3, h4.step hv hm hp⟩

/-- A successful commit and where its header is. -/
theorem Hist.mark {s : Sys} (H : Hist E getKey s) {d : Commit} (hd : d ∈ s.done) :
    s.commits.find? (fun c => c.pos = d.pos) = some d ∧ d.pos % blockSize = 0 ∧ s.db.file.disk[d.pos]? = some btHeader ∧
      d.pos < s.db.file.pos := by
  obtain ⟨o1, o2, o3, o4⟩ := H.live.oks d hd
  obtain ⟨c', h, q, g1, g2, g3, _⟩ := H.live.headers d.pos o2 (Or.inl o4)
  have := g2.hdr.lt
  exact ⟨o1, o2, o4, by omega⟩

theorem AtCommit.pos {s : Sys} {c : Commit} (A : AtCommit E getKey s c) : c.pos = s.db.header.position := find_pos A.found

theorem AtCommit.same {s : Sys} {c d : Commit} (A : AtCommit E getKey s c) (hd : d ∈ s.done) (h : d.pos = c.pos) : d = c := by
  have h1 := (A.hist.mark hd).1
  have h2 := A.found
  rw [← A.pos, ← h, h1] at h2
  exact Option.some.inj h2

theorem lines_backward (L : E.Laws) : ∀ (fuel : Nat) (s : Sys) (c : Commit), AtCommit E getKey s c →
    s.db.header.position < fuel * blockSize →
    ∃ cs ls, headerLines E .backward fuel s.db = (ls, true) ∧ Lines (c :: cs) ls ∧ (∀ d ∈ c :: cs, d ∈ s.commits) ∧
      (c :: cs).Pairwise (fun a b => b.pos < a.pos) ∧
      (∀ d, Ancestor s.done c d → d ∈ c :: cs) ∧
      ((∀ d ∈ s.commits, d.db.header.diskVersion < 14) → ∀ d ∈ s.done, d.pos ≤ c.pos → d ∈ c :: cs) := by
  have hbs : blockSize = 4096 := rfl
  intro fuel
  induction fuel with
  | zero => intro s c A h; simp at h
  | succ fuel ih =>
    intro s c A hfuel
    have H := A.hist
    have hpos := A.pos
    have hc : c ∈ s.commits := List.mem_of_find?_eq_some A.found
    have hsp := seekBackward_spec H.movable A.calm
    have hal := H.nav.aligned
    have hprev : 14 ≤ c.db.header.diskVersion → s.db.header.prevHeaderPos = c.prev := by
      intro hv
      rcases H.nav.prev (by rw [A.ver]; exact hv) with ⟨c2, h1, h2⟩ | ⟨h1, _⟩
      · rw [A.found] at h1; cases h1; exact h2
      · rw [A.found] at h1; cases h1
    have hstep : ∀ e ∈ s.done, e.pos = c.prev → c.prev < s.db.header.position ∧ c.prev ≠ unknownPrevHeaderPos ∧
        c.prev ≠ noPrevHeaderPos ∧ s.db.file.disk[c.prev]? = some btHeader := by
      intro e he hp
      obtain ⟨o1, o2, o3, o4⟩ := H.mark he
      have h1 : c.prev ≠ noPrevHeaderPos := by
        intro h
        rw [hp, h] at o2
        revert o2; decide
      have h2 : c.prev ≠ unknownPrevHeaderPos := by
        intro h
        rw [hp, h] at o2
        revert o2; decide
      rcases H.nav.list c hc with h | h
      · exact absurd h h1
      · exact ⟨by rw [← hpos]; exact h.2, h2, h1, by rw [← hp]; exact o3⟩
    unfold Sp at hsp
    unfold headerLines
    cases hx : seekDir E .backward s.db with
    | error e db' =>
      rw [hx] at hsp
      obtain ⟨h1, h2⟩ := hsp
      refine ⟨[], _, rfl, ⟨A.line, trivial⟩, by simpa using hc, by simp, ?_, ?_⟩
      · intro d hd
        rcases hd.first with rfl | ⟨hv, e, h3, h4, _⟩
        · exact List.mem_cons_self
        · obtain ⟨k1, k2, k3, k4⟩ := hstep e h3 h4
          have := h2 (by rw [A.ver]; exact hv)
          rw [hprev hv] at this
          exact absurd k4 (this k1 k2 k3)
      · intro hv d hd hle
        rcases Nat.lt_or_ge d.pos c.pos with hlt | hge
        · obtain ⟨o1, o2, o3, o4⟩ := H.mark hd
          exact absurd o3 (h1 (by rw [A.ver]; exact hv c hc) d.pos o2 (by omega))
        · rw [A.same hd (by omega)]; exact List.mem_cons_self
    | ok a db' =>
      rw [hx] at hsp
      obtain ⟨P, c', k, kpos, k1, k2, k3⟩ := hsp
      have A' := k.at L H A.calm
      have hP : db'.header.position = P := (k.hist L H).2.2.1
      have hcP : c'.pos = P := find_pos k.found
      obtain ⟨cs, ls, g1, g2, g3, g4, g5, g6⟩ := ih { s with db := db' } c' A' (by
        show db'.header.position < _
        rw [hP]
        have := k.aligned
        simp only [hbs] at *
        omega)
      have g1 : headerLines E .backward fuel db' = (ls, true) := g1
      refine ⟨c' :: cs, headerLine s.db :: ls, by dsimp only; rw [g1], ⟨A.line, g2⟩, ?_, ?_, ?_, ?_⟩
      · intro d hd
        rcases List.mem_cons.mp hd with rfl | hd
        · exact hc
        · exact g3 d hd
      · refine List.pairwise_cons.mpr ⟨?_, g4⟩
        intro b hb
        rcases List.mem_cons.mp hb with rfl | hb
        · omega
        · have := (List.pairwise_cons.mp g4).1 b hb
          omega
      · intro d hd
        rcases hd.first with rfl | ⟨hv, e, h3, h4, h5⟩
        · exact List.mem_cons_self
        · obtain ⟨l1, l2, l3, l4⟩ := hstep e h3 h4
          have hPe := k3 (by rw [A.ver]; exact hv)
          rw [hprev hv] at hPe
          have hPe := hPe l1 l2 l4
          have : e = c' := A'.same h3 (by rw [h4, hcP, hPe])
          rw [this] at h5
          exact List.mem_cons_of_mem _ (g5 d h5)
      · intro hv d hd hle
        rcases Nat.lt_or_ge d.pos c.pos with hlt | hge
        · obtain ⟨o1, o2, o3, o4⟩ := H.mark hd
          refine List.mem_cons_of_mem _ (g6 hv d hd ?_)
          rcases Nat.lt_or_ge P d.pos with h | h
          · exact absurd o3 (k2 (by rw [A.ver]; exact hv c hc) d.pos o2 h (by omega))
          · omega
        · rw [A.same hd (by omega)]; exact List.mem_cons_self

theorem lines_forward (L : E.Laws) : ∀ (fuel : Nat) (s : Sys) (c : Commit), AtCommit E getKey s c →
    s.db.file.pos ≤ s.db.header.position + fuel * blockSize →
    ∃ cs ls, headerLines E .forward fuel s.db = (ls, true) ∧ Lines (c :: cs) ls ∧ (∀ d ∈ c :: cs, d ∈ s.commits) ∧
      (c :: cs).Pairwise (fun a b => a.pos < b.pos) ∧
      (∀ d ∈ cs, s.db.file.disk[d.pos]? = some btHeader ∧ d.pos % blockSize = 0) ∧
      (∀ d ∈ s.done, c.pos ≤ d.pos → d ∈ c :: cs) := by
  have hbs : blockSize = 4096 := rfl
  intro fuel
  induction fuel with
  | zero =>
    intro s c A h
    have := A.hist.nav.lt
    omega
  | succ fuel ih =>
    intro s c A hfuel
    have H := A.hist
    have hpos := A.pos
    have hc : c ∈ s.commits := List.mem_of_find?_eq_some A.found
    have hsp := seekForward_spec H.movable A.calm
    have hal := H.nav.aligned
    unfold Sp at hsp
    unfold headerLines
    cases hx : seekDir E .forward s.db with
    | error e db' =>
      rw [hx] at hsp
      refine ⟨[], _, rfl, ⟨A.line, trivial⟩, by simpa using hc, by simp, by simp, ?_⟩
      intro d hd hle
      obtain ⟨o1, o2, o3, o4⟩ := H.mark hd
      rcases Nat.lt_or_ge c.pos d.pos with hlt | hge
      · exact absurd o3 (hsp d.pos o2 (by omega) o4)
      · rw [A.same hd (by omega)]; exact List.mem_cons_self
    | ok a db' =>
      rw [hx] at hsp
      obtain ⟨P, c', k, kpos, k1, k2⟩ := hsp
      have A' := k.at L H A.calm
      have hP : db'.header.position = P := (k.hist L H).2.2.1
      have hcP : c'.pos = P := find_pos k.found
      obtain ⟨cs, ls, g1, g2, g3, g4, g5, g6⟩ := ih { s with db := db' } c' A' (by
        show db'.file.pos ≤ db'.header.position + _
        rw [hP, kpos]
        have := k.aligned
        simp only [hbs] at *
        omega)
      have g1 : headerLines E .forward fuel db' = (ls, true) := g1
      refine ⟨c' :: cs, headerLine s.db :: ls, by dsimp only; rw [g1], ⟨A.line, g2⟩, ?_, ?_, ?_, ?_⟩
      · intro d hd
        rcases List.mem_cons.mp hd with rfl | hd
        · exact hc
        · exact g3 d hd
      · refine List.pairwise_cons.mpr ⟨?_, g4⟩
        intro b hb
        rcases List.mem_cons.mp hb with rfl | hb
        · omega
        · have := (List.pairwise_cons.mp g4).1 b hb
          omega
      · intro d hd
        rcases List.mem_cons.mp hd with rfl | hd
        · rw [hcP]; exact ⟨k.marked, k.aligned⟩
        · have := g5 d hd
          rw [← k.lost.disk]
          exact this
      · intro d hd hle
        obtain ⟨o1, o2, o3, o4⟩ := H.mark hd
        rcases Nat.lt_or_ge c.pos d.pos with hlt | hge
        · refine List.mem_cons_of_mem _ (g6 d hd ?_)
          rcases Nat.lt_or_ge d.pos P with h | h
          · exact absurd o3 (k2 d.pos o2 (by omega) h)
          · omega
        · rw [A.same hd (by omega)]; exact List.mem_cons_self

end Couchstore
