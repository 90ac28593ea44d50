import Verif.Lemmas.DbDump
import Verif.Lemmas.DbInfoToolOpen
import Verif.Spec.DumpHeaders

/-! Lemmas for the dump of all headers. -/

namespace Couchstore

variable {E : Env} {getKey : KeyGetter} {lib : DumpLib} {o : DumpOpts}

theorem dumpDb_round (mode : DumpMode) (db : Db) :
    dumpDb E lib o mode db = dumpEnd (dumpRound E lib o mode db).1 (dumpRound E lib o mode db).2 := by
  unfold dumpDb dumpRound
  cases mode with
  | bySeq =>
    dsimp only
    generalize changesSince E 0 ⟨true, false, false⟩ (dumpCb E lib o db) _ db = r
    cases r <;> rfl
  | byId =>
    dsimp only
    generalize allDocs E none ⟨true, false, false⟩ (dumpCb E lib o db) _ db = r
    cases r <;> rfl
  | key k =>
    dsimp only
    generalize docinfoById E k db = r
    cases r <;> rfl

theorem dumpEnd_done {st : DumpState} {e : Option Err} {ls : List DumpLine} {n : Nat} (h : dumpEnd st e = .done ls n) :
    st.thrown = false ∧ st.lines = ls ∧ st.count = n := by
  unfold dumpEnd at h
  split at h
  · cases h
  · split at h
    · cases h; exact ⟨by simpa using ‹¬ st.thrown = true›, rfl, rfl⟩
    · cases h

/-- A key that is not there is no document. -/
theorem dumpRound_missing (L : E.Laws) {db : Db} (hf : db.file.faults = []) {k : Bytes} (h : dumped E db (.key k) = []) :
    (dumpRound E lib o (.key k) db).1 = dumpStart := by
  have hcalm : db.calm = db := by
    unfold Db.calm File.calm
    rw [← hf]
  unfold dumpRound
  dsimp only
  unfold dumped ask answer at h
  dsimp only at h
  rw [hcalm] at h
  cases hx : docinfoById E k db with
  | ok d db' => rw [hx] at h; simp at h
  | error e db' => rfl

theorem dumpRound_all (L : E.Laws) {db : Db} {ids seqs locs} (inv : Inv E db ids seqs locs) (hd : db.dropped = false)
    (hf : db.file.faults = []) (mode : DumpMode) (hp : ∀ d ∈ dumped E db mode, Printable E lib o db d) :
    (dumpRound E lib o mode db).1.thrown = false ∧ (dumpRound E lib o mode db).1.count = (dumped E db mode).length ∧
      LinesRight E lib o db (dumped E db mode) (dumpRound E lib o mode db).1.lines := by
  by_cases hk : ∀ k, mode = .key k → dumped E db mode ≠ []
  · obtain ⟨ls, h1, h2⟩ := dumpDb_all (lib := lib) (o := o) L inv hd hf mode hk hp
    rw [dumpDb_round] at h1
    obtain ⟨h3, h4, h5⟩ := dumpEnd_done h1
    exact ⟨h3, h5, by rw [h4]; exact h2⟩
  · obtain ⟨k, hm, h⟩ : ∃ k, mode = .key k ∧ dumped E db mode = [] := by
      by_cases hx : ∃ k, mode = .key k ∧ dumped E db mode = []
      · exact hx
      · exact absurd (fun k hm h => hx ⟨k, hm, h⟩) hk
    rw [h]
    subst hm
    rw [dumpRound_missing L hf h]
    exact ⟨rfl, rfl, trivial⟩

theorem AtCommit.round (L : E.Laws) {s : Sys} {c : Commit} (A : AtCommit E getKey s c) (mode : DumpMode)
    (hp : ∀ d ∈ dumped E c.db mode, Printable E lib o c.db d) :
    (dumpRound E lib o mode s.db).1.thrown = false ∧
      (dumpRound E lib o mode s.db).1.count = (dumped E c.db mode).length ∧
      LinesRight E lib o c.db (dumped E c.db mode) (dumpRound E lib o mode s.db).1.lines := by
  obtain ⟨ids, seqs, locs, hh⟩ := A.hist.handle
  have hsame := dumped_same A.shows_.answers mode
  rw [← hsame] at hp ⊢
  obtain ⟨h1, h2, h3⟩ := dumpRound_all (lib := lib) (o := o) L hh.inv hh.opened A.calm mode
    fun d hd => (hp d hd).same A.shows_.answers
  exact ⟨h1, h2, LinesRight.same A.shows_.answers _ _ h3⟩

/-- A header that says that there is none before it. -/
theorem seekDir_noPrev {db : Db} (h1 : db.dropped = false) (h2 : db.header.position ≠ 0) (hv : 14 ≤ db.header.diskVersion)
    (hp : db.header.prevHeaderPos = noPrevHeaderPos) : ∃ d', seekDir E .backward db = .error .dbNoLongerValid d' := by
  have hx : ∃ d', seekStep E .backward db = .error .dbNoLongerValid d' := by
    refine ⟨{ db with header := { db.header with byIdRoot := none, bySeqRoot := none, localRoot := none } }, ?_⟩
    show rewindImpl E db = _
    unfold rewindImpl
    simp only [get, getThe, MonadStateOf.get, EStateM.get, bind, EStateM.bind, h1, Bool.false_eq_true, if_false, resetHeader,
      setHeader, modify, modifyGet, MonadStateOf.modifyGet, EStateM.modifyGet, hv, if_true, hp, throw, throwThe,
      MonadExceptOf.throw, EStateM.throw]
  obtain ⟨d', hx⟩ := hx
  unfold seekDir
  rw [if_neg (by rw [h1]; simp), if_neg (by simp [h2]), hx]
  dsimp only
  rw [if_neg (by decide)]
  unfold reloadOr
  split <;> exact ⟨_, rfl⟩

theorem seekDir_first {db : Db} (h1 : db.dropped = false) (h2 : db.header.position = 0) :
    seekDir E .backward db = .error .noHeader db := by
  unfold seekDir
  rw [if_neg (by rw [h1]; simp), if_pos ⟨rfl, h2⟩]

theorem dumps_backward (L : E.Laws) (mode : DumpMode) : ∀ (fuel : Nat) (s : Sys) (c : Commit), AtCommit E getKey s c →
    s.db.header.position < fuel * blockSize →
    (∀ c ∈ s.commits, ∀ d ∈ dumped E c.db mode, Printable E lib o c.db d) →
    ∃ cs rs,
      (dumpHeaders E lib o mode fuel s.db = .done rs (docsIn E mode (c :: cs)) ∨ dumpHeaders E lib o mode fuel s.db = .failed rs) ∧
      RoundsRight E lib o mode (c :: cs) rs ∧ (∀ d ∈ c :: cs, d ∈ s.commits) ∧
      (c :: cs).Pairwise (fun a b => b.pos < a.pos) ∧
      (∀ d, Ancestor s.done c d → d ∈ c :: cs) ∧
      ((∀ d ∈ s.commits, d.db.header.diskVersion < 14) → ∀ d ∈ s.done, d.pos ≤ c.pos → d ∈ c :: cs) ∧
      (((c :: cs).getLast (by simp)).pos = 0 → dumpHeaders E lib o mode fuel s.db = .done rs (docsIn E mode (c :: cs))) ∧
      (14 ≤ ((c :: cs).getLast (by simp)).db.header.diskVersion → ((c :: cs).getLast (by simp)).prev = noPrevHeaderPos →
        ((c :: cs).getLast (by simp)).pos ≠ 0 → dumpHeaders E lib o mode fuel s.db = .failed rs) := by
  have hbs : blockSize = 4096 := rfl
  intro fuel
  induction fuel with
  | zero => intro s c A h; simp at h
  | succ fuel ih =>
    intro s c A hfuel hprint
    have H := A.hist
    have hpos := A.pos
    have hc : c ∈ s.commits := List.mem_of_find?_eq_some A.found
    have hsp := seekBackward_spec H.movable A.calm
    have hal := H.nav.aligned
    obtain ⟨r1, r2, r3⟩ := A.round L mode (hprint c hc)
    have hprev : 14 ≤ c.db.header.diskVersion → s.db.header.prevHeaderPos = c.prev := by
      intro hv
      rcases H.nav.prev (by rw [A.ver]; exact hv) with ⟨c2, h1, h2⟩ | ⟨h1, _⟩
      · rw [A.found] at h1; cases h1; exact h2
      · rw [A.found] at h1; cases h1
    have hstep : ∀ e ∈ s.done, e.pos = c.prev → c.prev < s.db.header.position ∧ c.prev ≠ unknownPrevHeaderPos ∧
        c.prev ≠ noPrevHeaderPos ∧ s.db.file.disk[c.prev]? = some btHeader := by
      intro e he hp
      obtain ⟨o1, o2, o3, o4⟩ := H.mark he
      have h1 : c.prev ≠ noPrevHeaderPos := by
        intro h
        rw [hp, h] at o2
        revert o2; decide
      have h2 : c.prev ≠ unknownPrevHeaderPos := by
        intro h
        rw [hp, h] at o2
        revert o2; decide
      rcases H.nav.list c hc with h | h
      · exact absurd h h1
      · exact ⟨by rw [← hpos]; exact h.2, h2, h1, by rw [← hp]; exact o3⟩
    have hopen : s.db.dropped = false := by
      obtain ⟨ids, seqs, locs, hh⟩ := H.handle
      exact hh.opened
    unfold Sp at hsp
    unfold dumpHeaders
    dsimp only
    generalize dumpRound E lib o mode s.db = st at r1 r2 r3 ⊢
    rw [if_neg (by rw [r1]; simp)]
    cases hx : seekDir E .backward s.db with
    | error e db' =>
      rw [hx] at hsp
      obtain ⟨h1, h2⟩ := hsp
      have hcount : st.1.count = docsIn E mode [c] := by simp [docsIn, r2]
      refine ⟨[], [st.1.lines], ?_, ⟨r3, trivial⟩, by simpa using hc, by simp, ?_, ?_, ?_, ?_⟩
      · dsimp only
        rw [hcount]
        split
        · exact Or.inl rfl
        · exact Or.inr rfl
      · intro d hd
        rcases hd.first with rfl | ⟨hv, e, h3, h4, _⟩
        · exact List.mem_cons_self
        · obtain ⟨k1, k2, k3, k4⟩ := hstep e h3 h4
          have := h2 (by rw [A.ver]; exact hv)
          rw [hprev hv] at this
          exact absurd k4 (this k1 k2 k3)
      · intro hv d hd hle
        rcases Nat.lt_or_ge d.pos c.pos with hlt | hge
        · obtain ⟨o1, o2, o3, o4⟩ := H.mark hd
          exact absurd o3 (h1 (by rw [A.ver]; exact hv c hc) d.pos o2 (by omega))
        · rw [A.same hd (by omega)]; exact List.mem_cons_self
      · intro h0
        rw [seekDir_first hopen (by rw [← hpos]; exact h0)] at hx
        cases hx
        dsimp only
        rw [if_pos rfl, hcount]
      · intro hv hp h0
        change 14 ≤ c.db.header.diskVersion at hv
        obtain ⟨d', hy⟩ := seekDir_noPrev (E := E) hopen (by rw [← hpos]; exact h0) (by rw [A.ver]; exact hv)
          (by rw [hprev hv]; exact hp)
        rw [hy] at hx
        cases hx
        dsimp only
        rw [if_neg (by decide)]
    | ok a db' =>
      rw [hx] at hsp
      obtain ⟨P, c', k, kpos, k1, k2, k3⟩ := hsp
      have A' := k.at L H A.calm
      have hP : db'.header.position = P := (k.hist L H).2.2.1
      have hcP : c'.pos = P := find_pos k.found
      obtain ⟨cs, rs, g1, g2, g3, g4, g5, g6, g7, g8⟩ := ih { s with db := db' } c' A' (by
        show db'.header.position < _
        rw [hP]
        have := k.aligned
        simp only [hbs] at *
        omega) hprint
      have hcount : st.1.count + docsIn E mode (c' :: cs) = docsIn E mode (c :: c' :: cs) := by
        simp [docsIn, r2]
      dsimp only at g1 g7 g8 ⊢
      refine ⟨c' :: cs, st.1.lines :: rs, ?_, ⟨r3, g2⟩, ?_, ?_, ?_, ?_, ?_, ?_⟩
      · rcases g1 with g1 | g1
        · rw [g1]; exact Or.inl (by simp only [AllEnd.after, hcount])
        · rw [g1]; exact Or.inr rfl
      · intro d hd
        rcases List.mem_cons.mp hd with rfl | hd
        · exact hc
        · exact g3 d hd
      · refine List.pairwise_cons.mpr ⟨?_, g4⟩
        intro b hb
        rcases List.mem_cons.mp hb with rfl | hb
        · omega
        · have := (List.pairwise_cons.mp g4).1 b hb
          omega
      · intro d hd
        rcases hd.first with rfl | ⟨hv, e, h3, h4, h5⟩
        · exact List.mem_cons_self
        · obtain ⟨l1, l2, l3, l4⟩ := hstep e h3 h4
          have hPe := k3 (by rw [A.ver]; exact hv)
          rw [hprev hv] at hPe
          have hPe := hPe l1 l2 l4
          have : e = c' := A'.same h3 (by rw [h4, hcP, hPe])
          rw [this] at h5
          exact List.mem_cons_of_mem _ (g5 d h5)
      · intro hv d hd hle
        rcases Nat.lt_or_ge d.pos c.pos with hlt | hge
        · obtain ⟨o1, o2, o3, o4⟩ := H.mark hd
          refine List.mem_cons_of_mem _ (g6 hv d hd ?_)
          rcases Nat.lt_or_ge P d.pos with h | h
          · exact absurd o3 (k2 (by rw [A.ver]; exact hv c hc) d.pos o2 h (by omega))
          · omega
        · rw [A.same hd (by omega)]; exact List.mem_cons_self
      · intro h0
        rw [g7 (by simpa using h0)]
        simp only [AllEnd.after, hcount]
      · intro hv hp h0
        rw [g8 (by simpa using hv) (by simpa using hp) (by simpa using h0)]
        rfl

theorem last_least {l : List Commit} {c : Commit} (hl : l.Pairwise (fun a b => b.pos < a.pos)) (hc : c ∈ l) :
    (l.getLast (List.ne_nil_of_mem hc)).pos ≤ c.pos := by
  induction l with
  | nil => cases hc
  | cons a r ih =>
    obtain ⟨h1, h2⟩ := List.pairwise_cons.mp hl
    cases r with
    | nil => obtain rfl := List.mem_singleton.mp hc; exact Nat.le_refl _
    | cons b r =>
      rw [List.getLast_cons (by simp)]
      rcases List.mem_cons.mp hc with rfl | hm
      · exact Nat.le_of_lt (h1 _ (List.getLast_mem _))
      · exact ih h2 hm

theorem dump_run (L : E.Laws) (mode : DumpMode) {s : Sys} {c : Commit} (A : AtCommit E getKey s c)
    (hp : ∀ c ∈ s.commits, ∀ d ∈ dumped E c.db mode, Printable E lib o c.db d) :
    ∃ cs rs,
      (dumpHeaders E lib o mode (s.db.file.pos / blockSize + 2) s.db = .done rs (docsIn E mode (c :: cs)) ∨
        dumpHeaders E lib o mode (s.db.file.pos / blockSize + 2) s.db = .failed rs) ∧
      RoundsRight E lib o mode (c :: cs) rs ∧ (∀ d ∈ c :: cs, d ∈ s.commits) ∧
      (c :: cs).Pairwise (fun a b => b.pos < a.pos) ∧
      (∀ d, Ancestor s.done c d → d ∈ c :: cs) ∧
      ((∀ d ∈ s.commits, d.db.header.diskVersion < 14) → ∀ d ∈ s.done, d.pos ≤ c.pos → d ∈ c :: cs) ∧
      (((c :: cs).getLast (by simp)).pos = 0 →
        dumpHeaders E lib o mode (s.db.file.pos / blockSize + 2) s.db = .done rs (docsIn E mode (c :: cs))) ∧
      (14 ≤ ((c :: cs).getLast (by simp)).db.header.diskVersion → ((c :: cs).getLast (by simp)).prev = noPrevHeaderPos →
        ((c :: cs).getLast (by simp)).pos ≠ 0 →
        dumpHeaders E lib o mode (s.db.file.pos / blockSize + 2) s.db = .failed rs) := by
  refine dumps_backward L mode _ s c A ?_ hp
  have := A.hist.nav.lt
  have hbs : blockSize = 4096 := rfl
  rw [hbs]
  omega

end Couchstore
