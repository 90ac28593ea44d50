import Verif.Lemmas.Search
import Verif.Props.Sample

/-! C32: the search for the first header that contains a sequence number. -/

namespace Couchstore.Props

/-- The handle is at the header of a successful commit. -/
theorem here_of {E : Env} (L : E.Laws) {getKey : KeyGetter} {s : Sys} (hs : History E getKey s)
    (hf : s.db.file.faults = []) {c : Commit} (hc : c ∈ s.done) (hp : c.pos = s.db.header.position) :
    Here E getKey s s.db c.pos ∧ s.seqAt c.pos = c.db.header.updateSeq := by
  have H := hs.hist L
  obtain ⟨o1, o2, o3, o4⟩ := H.live.oks c hc
  refine ⟨⟨H, hf, rfl, hp.symm, o2, o4⟩, ?_⟩
  unfold Sys.seqAt Sys.commitAt
  rw [o1]

/-- C32 (partial: which of the headers that contain the sequence number is found is not said).  From
a handle at the header of a successful commit that contains a sequence number, and without failing
reads, the search ends and succeeds, and the handle then shows a commit that contains the sequence
number, and that is not newer. -/
theorem C32_search_partial (E : Env) (L : E.Laws) (getKey : KeyGetter) (s : Sys) (hs : History E getKey s)
    (hf : s.db.file.faults = []) (c : Commit) (hc : c ∈ s.done) (hp : c.pos = s.db.header.position)
    (seqno : Nat) (hseq : seqno ≤ c.db.header.updateSeq) :
    ∃ db' c', seekFirst E seqno 1 s.db = .ok () db' ∧ s.commitAt c'.pos = some c' ∧ Shows E db' c' ∧
      c'.pos ≤ c.pos ∧ seqno ≤ c'.db.header.updateSeq := by
  obtain ⟨H, h1⟩ := here_of L hs hf hc hp
  obtain ⟨P, db', k1, k2, k3, k4, _⟩ := seekFirst_one L H seqno (by omega)
  obtain ⟨c', g1, g2, g3⟩ := k2.shows
  have hP : P = c'.pos := by rw [← g3.position, k2.position]
  subst hP
  refine ⟨db', c', k1, g1, g3, k3, ?_⟩
  rw [← g2, k2.seq]
  exact k4

/-- C32 (partial: only for headers at shrinking distances).  If every header is at most as far from
its predecessor as that one is from its predecessors, and the last sequences grow, then the search
ends at the first header that contains the sequence number: no older commit contains it. -/
theorem C32_search_exact_partial (E : Env) (L : E.Laws) (getKey : KeyGetter) (s : Sys) (hs : History E getKey s)
    (hf : s.db.file.faults = []) (c : Commit) (hc : c ∈ s.done) (hp : c.pos = s.db.header.position)
    (seqno : Nat) (hseq : seqno ≤ c.db.header.updateSeq)
    (hg : s.SeqsGrow c.pos) (hd : s.GapsShrink c.pos) (h0 : s.HeaderAt 0 → s.seqAt 0 < seqno) :
    ∃ db' c', seekFirst E seqno 1 s.db = .ok () db' ∧ s.commitAt c'.pos = some c' ∧ Shows E db' c' ∧
      c'.pos ≤ c.pos ∧ seqno ≤ c'.db.header.updateSeq ∧
      (∀ P, s.HeaderAt P → P < c'.pos → s.seqAt P < seqno) ∧
      ∀ c0 ∈ s.done, c0.pos < c'.pos → c0.db.header.updateSeq < seqno := by
  obtain ⟨H, h1⟩ := here_of L hs hf hc hp
  obtain ⟨P, db', k1, k2, k3, k4, k5⟩ := seekFirst_one L H seqno (by omega)
  obtain ⟨c', g1, g2, g3⟩ := k2.shows
  have hP : P = c'.pos := by rw [← g3.position, k2.position]
  subst hP
  have hall := k5.exact k2.marked k3 hg hd h0
  refine ⟨db', c', k1, g1, g3, k3, by rw [← g2, k2.seq]; exact k4, hall, fun c0 h2 h3 => ?_⟩
  obtain ⟨o1, o2, o3, o4⟩ := (hs.hist L).live.oks c0 h2
  have := hall c0.pos ⟨o2, o4⟩ h3
  unfold Sys.seqAt Sys.commitAt at this
  rw [o1] at this
  exact this

/-- C32, other granularities: from the header that is found with granularity one the handle goes on,
up to where it was, to the last header in the same interval of time, if the intervals start at the
multiples of the granularity (timestamps and granularity are 64 bit numbers). -/
theorem C32_granularity (E : Env) (L : E.Laws) (getKey : KeyGetter) (s : Sys) (hs : History E getKey s)
    (hf : s.db.file.faults = []) (c : Commit) (hc : c ∈ s.done) (hp : c.pos = s.db.header.position)
    (seqno g : Nat) (hg : 0 < g) (hseq : seqno ≤ c.db.header.updateSeq)
    (hb : ∀ P, s.timeAt P + g < 2 ^ 64) :
    ∃ db1 db' c1 c', seekFirst E seqno 1 s.db = .ok () db1 ∧ Shows E db1 c1 ∧ seqno ≤ c1.db.header.updateSeq ∧
      seekFirst E seqno g s.db = .ok () db' ∧ s.commitAt c'.pos = some c' ∧ Shows E db' c' ∧
      c1.pos ≤ c'.pos ∧ c'.pos ≤ c.pos ∧
      (∀ P, s.HeaderAt P → c1.pos < P → P ≤ c'.pos → s.timeAt P < (s.timeAt c1.pos / g + 1) * g) ∧
      (c'.pos = c.pos ∨ g = 1 ∨ ∃ Q, s.HeaderAt Q ∧ c'.pos < Q ∧ Q ≤ c.pos ∧
        (∀ X, c'.pos < X → X < Q → ¬ s.HeaderAt X) ∧ (s.timeAt c1.pos / g + 1) * g ≤ s.timeAt Q) := by
  obtain ⟨H, h1⟩ := here_of L hs hf hc hp
  obtain ⟨P, db1, k1, k2, k3, k4, _⟩ := seekFirst_one L H seqno (by omega)
  obtain ⟨c1, g1, g2, g3⟩ := k2.shows
  have hP : P = c1.pos := by rw [← g3.position, k2.position]
  subst hP
  obtain ⟨P', db', j1, j2, j3, j4, j5, j6⟩ := seekFirst_gran L H seqno g hg k1 k2 k3 (hb _)
  obtain ⟨c', f1, f2, f3⟩ := j2.shows
  have hP' : P' = c'.pos := by rw [← f3.position, j2.position]
  subst hP'
  refine ⟨db1, db', c1, c', k1, g3, ?_, j1, f1, f3, j3, j4, fun P a1 a2 a3 => (j5 P a1 a2 a3).2, j6⟩
  rw [← g2, k2.seq]
  exact k4

/-- Granularity zero is refused: the code throws. -/
theorem C32_granularity_zero (E : Env) (seqno : Nat) (db : Db) :
    seekFirst E seqno 0 db = .error .logicError db := rfl

/-! ### Examples -/

/-- Headers in all blocks have shrinking distances. -/
theorem gaps_of_all {s : Sys} {lo tip : Nat} (h1 : ∀ P, P % blockSize = 0 → lo ≤ P → P ≤ tip → s.HeaderAt P)
    (h2 : ∀ P, s.HeaderAt P → lo ≤ P) : s.GapsShrink tip := by
  have hbs : blockSize = 4096 := rfl
  intro P Q R hP hQ hR a1 a2 a3 hn
  have b1 := hQ.1
  have b2 := hR.1
  have b3 : P % blockSize = 0 := by
    rcases hP with rfl | hP
    · rfl
    · exact hP.1
  have hlo := h2 Q hQ
  by_cases h : R = Q + blockSize
  · rw [hbs] at *; omega
  · exact absurd (h1 (Q + blockSize) (by rw [hbs] at *; omega) (by omega) (by rw [hbs] at *; omega))
      (hn _ (by rw [hbs]; omega) (by rw [hbs] at *; omega))

/-- The positions of the headers of a file with at most `n` blocks. -/
theorem headerAt_lt {s : Sys} {n P : Nat} (h : s.db.file.disk.length ≤ n * blockSize) (hP : s.HeaderAt P) :
    ∃ k, k < n ∧ P = k * blockSize := by
  have hbs : blockSize = 4096 := rfl
  have h1 := hP.1
  have h2 := (List.getElem?_eq_some_iff.mp hP.2).1
  rw [hbs] at h h1 ⊢
  exact ⟨P / 4096, by omega, by omega⟩


theorem twoCommits4_seqAt {d0 d1 d2 d3 d4 : Db} (h0 : d0.header.position ≠ (Commit.of d1 1000).pos)
    (h1 : (Commit.of d1 1000).pos ≠ (Commit.of d3 2000).pos) (h2 : d0.header.position ≠ (Commit.of d3 2000).pos) :
    (twoCommits4 d0 d1 d2 d3 d4).seqAt d0.header.position = d0.header.updateSeq ∧
    (twoCommits4 d0 d1 d2 d3 d4).seqAt (Commit.of d1 1000).pos = d1.header.updateSeq ∧
    (twoCommits4 d0 d1 d2 d3 d4).seqAt (Commit.of d3 2000).pos = d3.header.updateSeq := by
  have h0' := h0.symm
  have h1' := h1.symm
  have h2' := h2.symm
  refine ⟨?_, ?_, ?_⟩ <;> simp [Sys.seqAt, Sys.commitAt, twoCommits4, twoCommits2, Sys.created, Commit.of] at *
  · simp [h0', h2']
  · simp [h1']


/-- The headers of a file with a block of metadata and three headers. -/
theorem three_headers {d0 d1 d2 d3 d4 : Db} (h1 : d4.file.disk.length ≤ 4 * blockSize)
    (h2 : d4.file.disk[0]? = some btMeta) (h3 : d4.file.disk[1 * blockSize]? = some btHeader)
    (h4 : d4.file.disk[2 * blockSize]? = some btHeader) (h5 : d4.file.disk[3 * blockSize]? = some btHeader)
    (p0 : d0.header.position = 1 * blockSize) (p1 : (Commit.of d1 1000).pos = 2 * blockSize)
    (p3 : (Commit.of d3 2000).pos = 3 * blockSize) (q0 : d0.header.updateSeq = 0) (q1 : d1.header.updateSeq = 2)
    (q3 : d3.header.updateSeq = 3) :
    (twoCommits4 d0 d1 d2 d3 d4).SeqsGrow (3 * blockSize) ∧ (twoCommits4 d0 d1 d2 d3 d4).GapsShrink (3 * blockSize) ∧
      ¬ (twoCommits4 d0 d1 d2 d3 d4).HeaderAt 0 := by
  have hbs : blockSize = 4096 := rfl
  obtain ⟨s0, s1, s3⟩ := twoCommits4_seqAt (d0 := d0) (d1 := d1) (d2 := d2) (d3 := d3) (d4 := d4)
    (by rw [p0, p1, hbs]; decide) (by rw [p1, p3, hbs]; decide) (by rw [p0, p3, hbs]; decide)
  rw [p0, q0] at s0
  rw [p1, q1] at s1
  rw [p3, q3] at s3
  have hno : ¬ (twoCommits4 d0 d1 d2 d3 d4).HeaderAt 0 := by
    rintro ⟨_, h⟩
    have h : d4.file.disk[0]? = some btHeader := h
    rw [h2] at h
    exact absurd h (by decide)
  have hk : ∀ P, (twoCommits4 d0 d1 d2 d3 d4).HeaderAt P → P = 1 * blockSize ∨ P = 2 * blockSize ∨ P = 3 * blockSize := by
    intro P hP
    obtain ⟨k, hk, rfl⟩ := headerAt_lt (n := 4) h1 hP
    have : k ≠ 0 := by rintro rfl; rw [Nat.zero_mul] at hP; exact hno hP
    have : k = 1 ∨ k = 2 ∨ k = 3 := by omega
    rcases this with rfl | rfl | rfl <;> simp
  refine ⟨?_, gaps_of_all (lo := 1 * blockSize) ?_ ?_, hno⟩
  · intro P Q hP hQ hlt _
    rcases hk P hP with rfl | rfl | rfl <;> rcases hk Q hQ with rfl | rfl | rfl <;>
      first
      | (exfalso; rw [hbs] at hlt; omega)
      | simp only [s0, s1, s3]; omega
  · intro P a1 a2 a3
    have : P = 1 * blockSize ∨ P = 2 * blockSize ∨ P = 3 * blockSize := by rw [hbs] at a1 a2 a3 ⊢; omega
    rcases this with rfl | rfl | rfl
    · exact ⟨a1, h3⟩
    · exact ⟨a1, h4⟩
    · exact ⟨a1, h5⟩
  · intro P hP
    rcases hk P hP with rfl | rfl | rfl <;> rw [hbs] <;> omega

/-- In the sample history the search for the sequence number 2 ends at the first of the two commits
that contain it. -/
example : ∃ db' c', seekFirst Env.toy 2 1 hdb4 = .ok () db' ∧
    (twoCommits4 hdb0 hdb1 hdb2 hdb3 hdb4).commitAt c'.pos = some c' ∧ Shows Env.toy db' c' ∧
    ∀ c0 ∈ (twoCommits4 hdb0 hdb1 hdb2 hdb3 hdb4).done, c0.pos < c'.pos → c0.db.header.updateSeq < 2 := by
  obtain ⟨h1, h2, h3, h4, h5, p0, p1, p3, q0, q1, q3, hf, _⟩ := hdb_all.2.2.2
  obtain ⟨g1, g2, g3⟩ := three_headers (d2 := hdb2) h1 h2 h3 h4 h5 p0 p1 p3 q0 q1 q3
  rw [← p3] at g1 g2
  obtain ⟨db', c', k1, k2, k3, _, _, _, k4⟩ := C32_search_exact_partial Env.toy Env.toy_laws sampleGetKey
    (twoCommits4 hdb0 hdb1 hdb2 hdb3 hdb4) sampleHist4 hf (Commit.of hdb3 2000) (by simp [twoCommits4])
    hdb_all.2.1.1.2.2.1.symm 2 (by show 2 ≤ hdb3.header.updateSeq; rw [q3]; decide) g1 g2 (fun h => absurd h g3)
  exact ⟨db', c', k1, k2, k3, k4⟩

/-- The search for a sequence number that no commit contains may report success: here the handle is at
the newest header, whose last sequence is 3, and it stays there. -/
theorem C32_beyond_the_end : ∃ (s : Sys) (db' : Db), History Env.toy sampleGetKey s ∧
    s.db.file.faults = [] ∧ (∀ c ∈ s.commits, c.db.header.updateSeq < 100) ∧
    seekFirst Env.toy 100 1 s.db = .ok () db' ∧ db'.header.position = s.db.header.position := by
  obtain ⟨h1, h2, h3, h4, h5, p0, p1, p3, q0, q1, q3, hf, hr⟩ := hdb_all.2.2.2
  have hpos : hdb4.header.position = 3 * blockSize := by rw [← p3]; exact hdb_all.2.1.1.2.2.1
  have hall : ∀ (d0 d1 d2 d3 d4 : Db), d0.header.updateSeq = 0 → d1.header.updateSeq = 2 → d3.header.updateSeq = 3 →
      ∀ c ∈ (twoCommits4 d0 d1 d2 d3 d4).commits, c.db.header.updateSeq < 100 := by
    intro d0 d1 d2 d3 d4 e0 e1 e3 c hc
    simp only [twoCommits4, twoCommits2, Sys.created, List.mem_cons] at hc
    rcases hc with rfl | rfl | hc
    · simp [Commit.of, e3]
    · simp [Commit.of, e1]
    · simp at hc
      subst hc
      simp [e0]
  have hgen : ∀ d : Db, d.header.position = 3 * blockSize →
      (match seekFirst Env.toy 100 1 d with
      | .ok _ db => db.header.position == 3 * blockSize
      | .error _ _ => false) = true →
      ∃ db', seekFirst Env.toy 100 1 d = .ok () db' ∧ db'.header.position = d.header.position := by
    intro d e1 e2
    cases hp : seekFirst Env.toy 100 1 d with
    | ok a db => rw [hp] at e2; exact ⟨db, rfl, by rw [e1]; simpa using e2⟩
    | error e db => rw [hp] at e2; simp at e2
  obtain ⟨db', k1, k2⟩ := hgen hdb4 hpos hr
  exact ⟨twoCommits4 hdb0 hdb1 hdb2 hdb3 hdb4, db', sampleHist4, hf, hall _ _ _ _ _ q0 q1 q3, k1, k2⟩

/-! ### A search that misses the first header

Without encryption, the creation writes a header to block 0.  Two documents are saved and committed in
block 1; a document of more than two blocks is saved, and committed in block 4. -/

/-- The document that is saved last. -/
def bigItems : List SaveItem := [sampleItem [99] (some (List.replicate 8200 5)) 0]

/-- The handle after the creation, -/
def gdb0 : Db := openedDb Env.toy sampleFlags none (crashedFile [] [])
/-- the first save, -/
def gdb1 : Db := after (saveDocuments Env.toy sampleOpts (some sampleCb) histItems []) gdb0
/-- the first commit, -/
def gdb2 : Db := after (commit Env.toy 1000 (fun _ => false)) gdb1
/-- the second save -/
def gdb3 : Db := after (saveDocuments Env.toy sampleOpts (some sampleCb) bigItems []) gdb2
/-- and the second commit. -/
def gdb4 : Db := after (commit Env.toy 2000 (fun _ => false)) gdb3

/-- All that is needed about these handles, evaluated at once. -/
theorem gdb_all :
    (isOk (openBody Env.toy sampleFlags none [7, 7] (newHandle sampleFlags (crashedFile [] []))) = true ∧
      argsB Env.toy gdb0 sampleOpts histItems = true ∧ isOk (commit Env.toy 1000 (fun _ => false) gdb1) = true ∧
      argsB Env.toy gdb2 sampleOpts bigItems = true ∧ isOk (commit Env.toy 2000 (fun _ => false) gdb3) = true) ∧
    (gdb4.file.faults = [] ∧ gdb4.header.position = (Commit.of gdb3 2000).pos ∧
    (Commit.of gdb1 1000).pos < (Commit.of gdb3 2000).pos ∧ gdb1.header.updateSeq = 2 ∧
    gdb3.header.updateSeq = 3 ∧
    (match seekFirst Env.toy 2 1 gdb4 with
      | .ok _ db => db.header.position == (Commit.of gdb3 2000).pos
      | .error _ _ => false) = true) := by
  decide +kernel

theorem gdb0_eq : openDb Env.toy sampleFlags none [7, 7] (crashedFile [] []) = .ok gdb0 gdb0.file :=
  openDb_opened (by decide) gdb_all.1.1
theorem gdb1_eq : SaveArgs Env.toy gdb0 sampleOpts histItems := args_of gdb_all.1.2.1
theorem gdb2_eq : commit Env.toy 1000 (fun _ => false) gdb1 = .ok () gdb2 := commit_after gdb_all.1.2.2.1
theorem gdb3_eq : SaveArgs Env.toy gdb2 sampleOpts bigItems := args_of gdb_all.1.2.2.2.1
theorem gdb4_eq : commit Env.toy 2000 (fun _ => false) gdb3 = .ok () gdb4 := commit_after gdb_all.1.2.2.2.2

theorem noKeys : KeysOk none false := ⟨by simp, by simp⟩

theorem gapHist : History Env.toy none (twoCommits4 gdb0 gdb1 gdb2 gdb3 gdb4) :=
  twoCommits4_hist (twoCommits3_hist (twoCommits2_hist
    (twoCommits1_hist (flags := sampleFlags) (by decide) noKeys rfl gdb0_eq
      (.save sampleOpts (some sampleCb) histItems [] gdb1_eq)) gdb2_eq)
    (.save sampleOpts (some sampleCb) bigItems [] gdb3_eq)) gdb4_eq

attribute [irreducible] gdb0 gdb1 gdb2 gdb3 gdb4

/-- How such a history shows that the search misses a header. -/
theorem misses_of {d0 d1 d2 d3 d4 : Db} (hs : History Env.toy none (twoCommits4 d0 d1 d2 d3 d4))
    (e1 : d4.file.faults = []) (e2 : d4.header.position = (Commit.of d3 2000).pos)
    (hlt : (Commit.of d1 1000).pos < (Commit.of d3 2000).pos) (q1 : d1.header.updateSeq = 2)
    (e3 : d3.header.updateSeq = 3)
    (e4 : (match seekFirst Env.toy 2 1 d4 with
      | .ok _ db => db.header.position == (Commit.of d3 2000).pos
      | .error _ _ => false) = true) :
    ∃ (s : Sys) (c c0 : Commit) (db' : Db), History Env.toy none s ∧
    s.db.file.faults = [] ∧ c ∈ s.done ∧ c.pos = s.db.header.position ∧ 2 ≤ c.db.header.updateSeq ∧
    c0 ∈ s.done ∧ c0.pos < c.pos ∧ c0.db.header.updateSeq = 2 ∧
    seekFirst Env.toy 2 1 s.db = .ok () db' ∧ Shows Env.toy db' c := by
  have h2 : 2 ≤ (Commit.of d3 2000).db.header.updateSeq := by show 2 ≤ d3.header.updateSeq; omega
  obtain ⟨db', c', k1, k2, k3, _⟩ := C32_search_partial Env.toy Env.toy_laws none _ hs e1 (Commit.of d3 2000)
    (by simp [twoCommits4]) e2.symm 2 h2
  have k1' : seekFirst Env.toy 2 1 d4 = .ok () db' := k1
  rw [k1'] at e4
  have hpos : db'.header.position = (Commit.of d3 2000).pos := by simpa using e4
  rw [← k3.position, hpos] at k2
  have : (twoCommits4 d0 d1 d2 d3 d4).commitAt (Commit.of d3 2000).pos = some (Commit.of d3 2000) := by
    simp [Sys.commitAt, twoCommits4]
  rw [this] at k2
  cases k2
  exact ⟨twoCommits4 d0 d1 d2 d3 d4, Commit.of d3 2000, Commit.of d1 1000, db', hs, e1,
    by simp [twoCommits4], e2.symm, h2, by simp [twoCommits4, twoCommits2], hlt, q1, k1', k3⟩

/-- C32 is false of the code: there is a history in which the search for the sequence number 2 reports
success and stays at the newest commit, although the last sequence of an older successful commit is 2. -/
theorem C32_search_misses : ∃ (s : Sys) (c c0 : Commit) (db' : Db), History Env.toy none s ∧
    s.db.file.faults = [] ∧ c ∈ s.done ∧ c.pos = s.db.header.position ∧ 2 ≤ c.db.header.updateSeq ∧
    c0 ∈ s.done ∧ c0.pos < c.pos ∧ c0.db.header.updateSeq = 2 ∧
    seekFirst Env.toy 2 1 s.db = .ok () db' ∧ Shows Env.toy db' c := by
  obtain ⟨hf, hp, hlt, q1, q3, hr⟩ := gdb_all.2
  exact misses_of gapHist hf hp hlt q1 q3 hr

end Couchstore.Props
