import Verif.Model.Search
import Verif.Spec.Search
import Verif.Lemmas.History

/-! Helper lemmas about the search for a header. -/

namespace Couchstore

section
variable {E : Env} {getKey : KeyGetter}

/-- The handle `db` of the history `s` is at the header at `P`. -/
structure Here (E : Env) (getKey : KeyGetter) (s : Sys) (db : Db) (P : Nat) : Prop where
  hist : Hist E getKey { s with db := db }
  faults : db.file.faults = []
  disk : db.file.disk = s.db.file.disk
  position : db.header.position = P
  marked : s.HeaderAt P

/-- It shows the commit with that header. -/
structure Shown (E : Env) (getKey : KeyGetter) (s : Sys) (db : Db) (P : Nat) : Prop extends Here E getKey s db P where
  shows : ∃ c, s.commitAt P = some c ∧ db.header.updateSeq = c.db.header.updateSeq ∧ Shows E db c

theorem Here.shown (L : E.Laws) {s : Sys} {db db' : Db} {P0 P : Nat} {c : Commit} (H : Here E getKey s db P0)
    (h : Landed E s.commits db db' P c) : Shown E getKey s db' P := by
  have h1 := h.hist (s := { s with db := db }) L H.hist
  have h2 := h.shows (s := { s with db := db }) L H.hist
  refine ⟨⟨h1.1, h.lost.nil H.faults, h.lost.disk.trans H.disk, h1.2.2.1, h.aligned, ?_⟩, c, h.found, ?_, h2⟩
  · rw [← H.disk]; exact h.marked
  · obtain ⟨q, hq, _⟩ := h.snap
    obtain ⟨ids, seqs, locs, _, _, h3⟩ := hq.data
    exact congrArg (fun x => x.1) h3

theorem Here.lt {s : Sys} {db : Db} {P0 P : Nat} (H : Here E getKey s db P0) (hm : s.HeaderAt P) : P < db.file.pos := by
  obtain ⟨c, h, q, g1, g2, g3, _⟩ := H.hist.live.headers P hm.1 (Or.inl (by
    show db.file.disk[P]? = _
    rw [H.disk]; exact hm.2))
  have := g2.hdr.lt
  have h3 : q ≤ db.file.pos := g3
  omega

theorem Here.seek_marked (L : E.Laws) {s : Sys} {db : Db} {P0 P : Nat} (H : Here E getKey s db P0) (hm : s.HeaderAt P) :
    ∃ db', seekOffset E P db = .ok () db' ∧ Shown E getKey s db' P := by
  have hsp := seekOffset_spec H.hist.movable P
  unfold Sp at hsp
  dsimp only at hsp
  cases hp : seekOffset E P db with
  | ok a db' =>
    rw [hp] at hsp
    obtain ⟨c, k⟩ := hsp
    exact ⟨db', rfl, H.shown L k⟩
  | error e db' =>
    rw [hp] at hsp
    refine absurd ⟨hm.1, H.lt hm, ?_⟩ (hsp.2 H.faults)
    rw [H.disk]; exact hm.2

theorem Here.seek_unmarked (L : E.Laws) {s : Sys} {db : Db} {P0 P : Nat} (H : Here E getKey s db P0)
    (hP : P % blockSize = 0) (hm : ¬ s.HeaderAt P) :
    ∃ db', seekOffset E P db = .error .noHeader db' ∧ Here E getKey s db' P0 := by
  have M := H.hist.movable
  have hw : db.file.pos ≤ db.file.disk.length := M.wf.pos_le
  have ho : db.dropped = false := M.opened
  unfold seekOffset
  rw [if_neg (by rw [ho]; simp), if_neg (by omega)]
  by_cases hlt : P ≥ db.file.pos
  · rw [if_pos hlt]
    exact ⟨db, rfl, H⟩
  rw [if_neg hlt]
  have hl1 : Lost db { db with header := { db.header with byIdRoot := none, bySeqRoot := none, localRoot := none } } :=
    Lost.setHeader _ _
  have hs : Sp (do resetHeader; findHeaderAtPos E P : DbM Unit) db
      (fun _ db' => ∃ c, Landed E s.commits db db' P c)
      (fun e db' => Lost db db' ∧ db'.file.pos = db.file.pos ∧ e = .noHeader) := by
    unfold resetHeader
    refine bind_ok' (setHeader_eq _ db) ?_
    refine (findAt_spec (commits := s.commits) (done := s.done) (getKey := getKey) (E := E)
      { db with header := { db.header with byIdRoot := none, bySeqRoot := none, localRoot := none } } (pos := db.file.pos)
      M.safe (Nat.le_refl _) (P := P) (by omega) (by show P < db.file.disk.length; omega)).mono ?_ ?_
    · rintro _ db' ⟨c, g1, _⟩
      exact ⟨c, hl1.landed g1⟩
    · rintro _ db' ⟨g1, g2⟩
      exact ⟨hl1.trans (Lost.of_DbR g1), by rw [g1.1.2], (g2 H.faults).1⟩
  unfold Sp at hs
  cases hx : (do resetHeader; findHeaderAtPos E P : DbM Unit) db with
  | ok a db' =>
    rw [hx] at hs
    obtain ⟨c, k⟩ := hs
    refine absurd ⟨hP, ?_⟩ hm
    rw [← H.disk]; exact k.marked
  | error e db' =>
    rw [hx] at hs
    obtain ⟨e', db2, h1, _, h3⟩ := reloadOr_spec (db := db) M hs.1 hs.2.1 e
    obtain ⟨rfl, c, k⟩ := h3 H.faults (by
      show db.file.disk[db.header.position]? = _
      rw [H.position, H.disk]; exact H.marked.2)
    dsimp only
    refine ⟨db2, ?_, ?_⟩
    · rw [h1, hs.2.2]
    · have := (H.shown L k).toHere
      rw [H.position] at this
      exact this

theorem Here.forward (L : E.Laws) {s : Sys} {db : Db} {P0 Q : Nat} (H : Here E getKey s db P0) (hm : s.HeaderAt Q)
    (hQ : P0 < Q) (hn : ∀ P, P0 < P → P < Q → ¬ s.HeaderAt P) :
    ∃ db', seekDir E .forward db = .ok () db' ∧ Shown E getKey s db' Q := by
  have M := H.hist.movable
  have ho : db.dropped = false := M.opened
  unfold seekDir
  rw [if_neg (by rw [ho]; simp), if_neg (by simp)]
  have hs := fastForwardImpl_spec db M.safe (Nat.le_refl _) M.wf.pos_le M.opened M.aligned
  unfold Sp at hs
  unfold seekStep
  dsimp only at hs ⊢
  cases hp : fastForwardImpl E db with
  | ok a db' =>
    rw [hp] at hs
    obtain ⟨P, c, k1, _, k3, k4⟩ := hs
    refine ⟨db', rfl, ?_⟩
    have hmP : s.HeaderAt P := ⟨k1.aligned, by rw [← H.disk]; exact k1.marked⟩
    have : P = Q := by
      rw [H.position] at k3 k4
      rcases Nat.lt_trichotomy P Q with h | h | h
      · exact absurd hmP (hn P k3 h)
      · exact h
      · refine absurd ?_ (k4 H.faults Q hm.1 hQ h)
        rw [H.disk]; exact hm.2
    rw [← this]
    exact H.shown L k1
  | error e db' =>
    rw [hp] at hs
    refine absurd ?_ (hs.2.2 H.faults Q hm.1 (by rw [H.position]; exact hQ) (H.lt hm))
    rw [H.disk]; exact hm.2

/-- The inner loop finds the first header that is not before `m`. -/
theorem Here.first (L : E.Laws) {s : Sys} {R : Nat} (hm : s.HeaderAt R) : ∀ (fuel : Nat) (m : Nat) (db : Db) (P0 : Nat),
    Here E getKey s db P0 → m % blockSize = 0 → m ≤ R → R < m + fuel * blockSize →
    ∃ P db', firstHeaderFrom E fuel m db = .ok P db' ∧ Shown E getKey s db' P ∧ m ≤ P ∧ P ≤ R ∧
      ∀ P', m ≤ P' → P' < P → ¬ s.HeaderAt P' := by
  have hbs : blockSize = 4096 := rfl
  intro fuel
  induction fuel with
  | zero => intro m db P0 _ _ _ h; omega
  | succ fuel ih =>
    intro m db P0 H ha hle hfu
    unfold firstHeaderFrom
    by_cases hk : s.HeaderAt m
    · obtain ⟨db', h1, h2⟩ := H.seek_marked L hk
      rw [h1]
      exact ⟨m, db', rfl, h2, Nat.le_refl _, hle, fun P' _ _ => by omega⟩
    · obtain ⟨db', h1, h2⟩ := H.seek_unmarked L ha hk
      rw [h1]
      dsimp only
      rw [if_pos rfl]
      have hne : m ≠ R := fun h => hk (h ▸ hm)
      have hR := hm.1
      obtain ⟨P, db2, g1, g2, g3, g4, g5⟩ := ih (m + blockSize) db' P0 h2 (by rw [hbs] at *; omega)
        (by rw [hbs] at *; omega) (by rw [hbs] at *; omega)
      refine ⟨P, db2, g1, g2, by omega, g4, fun P' a1 a2 hx => ?_⟩
      have h1 := hx.1
      by_cases hP : P' = m
      · exact hk (hP ▸ hx)
      · exact g5 P' (by rw [hbs] at *; omega) a2 hx

theorem Shown.seq {s : Sys} {db : Db} {P : Nat} (h : Shown E getKey s db P) : db.header.updateSeq = s.seqAt P := by
  obtain ⟨c, h1, h2, _⟩ := h.shows
  unfold Sys.seqAt
  rw [h1, h2]


theorem Shown.time {s : Sys} {db : Db} {P : Nat} (h : Shown E getKey s db P) : db.header.timestamp = s.timeAt P := by
  obtain ⟨c, h1, _, h2⟩ := h.shows
  unfold Sys.timeAt
  rw [h1, h2.timestamp]

/-- What is known of the place where the search ends: either the sequence number is the last one of
that commit, or there is no header in the second half of the range. -/
def SearchEnd (s : Sys) (seqno P : Nat) : Prop :=
  seqno = s.seqAt P ∨ ∃ l, (l = 0 ∨ s.HeaderAt l ∧ s.seqAt l < seqno) ∧ l ≤ P ∧
    ∀ P', l < P' → (l + P) / 2 - (l + P) / 2 % blockSize ≤ P' → P' < P → ¬ s.HeaderAt P'

theorem searchLoop_spec (L : E.Laws) {s : Sys} (seqno : Nat) : ∀ (fuel l r : Nat) (db : Db) (P0 : Nat),
    Here E getKey s db P0 → l % blockSize = 0 → (l = 0 ∨ s.HeaderAt l ∧ s.seqAt l < seqno) → s.HeaderAt r →
    seqno ≤ s.seqAt r → l ≤ r → r < l + fuel * blockSize →
    ∃ P db', searchLoop E seqno fuel l r db = .ok () db' ∧ Shown E getKey s db' P ∧ P ≤ r ∧ seqno ≤ s.seqAt P ∧
      SearchEnd s seqno P := by
  have hbs : blockSize = 4096 := rfl
  intro fuel
  induction fuel with
  | zero => intro l r db P0 _ _ _ _ _ _ h; omega
  | succ fuel ih =>
    intro l r db P0 H hal hl hr hsr hlr hfu
    have hrp := H.lt hr
    have har := hr.1
    unfold searchLoop
    rw [if_neg (by omega)]
    generalize hmid : (l + r) / 2 - (l + r) / 2 % blockSize = mid
    have hm1 : mid % blockSize = 0 := by rw [hbs] at *; omega
    have hm2 : l ≤ mid := by rw [hbs] at *; omega
    have hm3 : mid ≤ r := by omega
    obtain ⟨m, db', g1, g2, g3, g4, g5⟩ := Here.first (E := E) (getKey := getKey) L hr (db.file.pos / blockSize + 1) mid
      db P0 H hm1 hm3 (by rw [hbs] at *; omega)
    dsimp only
    rw [bind_ok (get_eq db), bind_ok g1, if_neg (by omega), bind_ok (get_eq db'), g2.seq]
    have hmm := g2.marked
    have ham := hmm.1
    by_cases hlt : seqno < s.seqAt m
    · rw [if_pos hlt]
      by_cases hrm : r = m
      · rw [if_pos hrm]
        refine ⟨m, db', rfl, g2, by omega, by omega, Or.inr ⟨l, hl, by omega, fun P' _ a2 a3 => ?_⟩⟩
        rw [← hrm, hmid] at a2
        exact g5 P' a2 a3
      · rw [if_neg hrm]
        obtain ⟨P, db2, k1, k2, k3, k4, k5⟩ := ih l m db' m g2.toHere hal hl hmm (by omega) (by omega)
          (by rw [hbs] at *; omega)
        exact ⟨P, db2, k1, k2, by omega, k4, k5⟩
    · rw [if_neg hlt]
      by_cases hgt : seqno > s.seqAt m
      · rw [if_pos hgt]
        by_cases hlm : l = m
        · rw [if_pos hlm]
          have hne : l ≠ r := by
            rintro rfl
            rw [← hlm] at hgt
            omega
          have hstep : r = l + blockSize := by rw [hbs] at *; omega
          have hno : ∀ P, m < P → P < r → ¬ s.HeaderAt P := by
            intro P a1 a2 hx
            have := hx.1
            rw [hbs] at *
            omega
          obtain ⟨db2, k1, k2⟩ := g2.toHere.forward L hr (by omega) hno
          unfold forwardOrThrow
          rw [k1]
          exact ⟨r, db2, rfl, k2, Nat.le_refl _, hsr, Or.inr ⟨l, hl, by omega, fun P' a1 _ a3 => hno P' (by omega) a3⟩⟩
        · rw [if_neg hlm]
          obtain ⟨P, db2, k1, k2, k3, k4, k5⟩ := ih m r db' m g2.toHere ham (Or.inr ⟨hmm, hgt⟩) hr hsr (by omega)
            (by rw [hbs] at *; omega)
          exact ⟨P, db2, k1, k2, by omega, k4, k5⟩
      · rw [if_neg hgt]
        exact ⟨m, db', rfl, g2, by omega, by omega, Or.inl (by omega)⟩

/-- The last header in a range. -/
theorem exists_last (s : Sys) (l P : Nat) : ∀ Q, l < Q → Q < P → s.HeaderAt Q →
    ∃ X, Q ≤ X ∧ X < P ∧ s.HeaderAt X ∧ ∀ Y, X < Y → Y < P → ¬ s.HeaderAt Y := by
  classical
  intro Q h1 h2 hm
  induction hk : P - Q using Nat.strongRecOn generalizing Q with
  | _ k ih =>
    by_cases h : ∃ Y, Q < Y ∧ Y < P ∧ s.HeaderAt Y
    · obtain ⟨Y, y1, y2, y3⟩ := h
      obtain ⟨X, x1, x2⟩ := ih (P - Y) (by omega) Y (by omega) y2 y3 rfl
      exact ⟨X, by omega, x2⟩
    · exact ⟨Q, Nat.le_refl _, h2, hm, fun Y a1 a2 a3 => h ⟨Y, a1, a2, a3⟩⟩

/-- The first header after a position. -/
theorem exists_first (s : Sys) (l : Nat) (P : Nat) (h1 : l < P) (hm : s.HeaderAt P) :
    ∃ X, s.HeaderAt X ∧ l < X ∧ X ≤ P ∧ ∀ Y, l < Y → Y < X → ¬ s.HeaderAt Y := by
  classical
  induction P using Nat.strongRecOn with
  | _ P ih =>
    by_cases h : ∃ Y, l < Y ∧ Y < P ∧ s.HeaderAt Y
    · obtain ⟨Y, y1, y2, y3⟩ := h
      obtain ⟨X, x1, x2, x3, x4⟩ := ih Y y2 y1 y3
      exact ⟨X, x1, x2, by omega, x4⟩
    · exact ⟨P, hm, h1, Nat.le_refl _, fun Y a1 a2 a3 => h ⟨Y, a1, a2, a3⟩⟩

/-- With shrinking gaps, the search ends at the first header that has the sequence number. -/
theorem SearchEnd.exact {s : Sys} {seqno P tip : Nat} (h : SearchEnd s seqno P) (hP : s.HeaderAt P) (hle : P ≤ tip)
    (hg : s.SeqsGrow tip) (hs : s.GapsShrink tip) (h0 : s.HeaderAt 0 → s.seqAt 0 < seqno) (Q : Nat)
    (hQ : s.HeaderAt Q) (hlt : Q < P) : s.seqAt Q < seqno := by
  rcases h with h | ⟨l, hl, hlP, hn⟩
  · rw [h]
    exact hg Q P hQ hP hlt hle
  · by_cases hQl : Q ≤ l
    · rcases hl with rfl | ⟨h1, h2⟩
      · have : Q = 0 := by omega
        subst this
        exact h0 hQ
      · by_cases he : Q = l
        · rw [he]; exact h2
        · exact Nat.lt_trans (hg Q l hQ h1 (by omega) (by omega)) h2
    · obtain ⟨X, x1, x2, x3, x4⟩ := exists_last s l P Q (by omega) hlt hQ
      have := hs l X P (hl.imp id And.left) x3 hP (by omega) x2 hle x4
      exact absurd x3 (hn X (by omega) (by omega) x2)

/-- The loop over the headers after the one found. -/
theorem forwardBefore_spec (L : E.Laws) {s : Sys} {tip next : Nat} (ht : s.HeaderAt tip) : ∀ (fuel : Nat) (db : Db) (P0 : Nat),
    Shown E getKey s db P0 → P0 ≤ tip → tip < P0 + fuel * blockSize →
    ∃ P db', forwardBefore E tip next fuel db = .ok () db' ∧ Shown E getKey s db' P ∧ P0 ≤ P ∧ P ≤ tip ∧
      (∀ Q, s.HeaderAt Q → P0 < Q → Q ≤ P → s.timeAt Q < next) ∧
      (P = tip ∨ ∃ Q, s.HeaderAt Q ∧ P < Q ∧ Q ≤ tip ∧ (∀ X, P < X → X < Q → ¬ s.HeaderAt X) ∧ next ≤ s.timeAt Q) := by
  classical
  have hbs : blockSize = 4096 := rfl
  intro fuel
  induction fuel with
  | zero => intro db P0 _ _ h; omega
  | succ fuel ih =>
    intro db P0 H hle hfu
    unfold forwardBefore
    rw [H.position]
    by_cases hlt : P0 < tip
    · rw [if_pos hlt]
      have hfirst : ∃ Q, s.HeaderAt Q ∧ P0 < Q ∧ Q ≤ tip ∧ ∀ X, P0 < X → X < Q → ¬ s.HeaderAt X := by
        exact exists_first s P0 tip hlt ht
      obtain ⟨Q, q1, q2, q3, q4⟩ := hfirst
      obtain ⟨db', k1, k2⟩ := H.toHere.forward L q1 q2 q4
      rw [k1]
      dsimp only
      rw [k2.time]
      by_cases hn : s.timeAt Q ≥ next
      · rw [if_pos hn]
        obtain ⟨db2, j1, j2⟩ := k2.toHere.seek_marked L H.marked
        rw [j1]
        exact ⟨P0, db2, rfl, j2, Nat.le_refl _, hle, fun X _ a1 a2 => by omega, Or.inr ⟨Q, q1, q2, q3, q4, hn⟩⟩
      · rw [if_neg hn]
        have h1 := q1.1
        have h2 := H.marked.1
        obtain ⟨P, db2, j1, j2, j3, j4, j5, j6⟩ := ih db' Q k2 q3 (by rw [hbs] at *; omega)
        refine ⟨P, db2, j1, j2, by omega, j4, fun X a1 a2 a3 => ?_, j6⟩
        by_cases hX : X ≤ Q
        · have : X = Q := by
            rcases Nat.lt_or_eq_of_le hX with h | h
            · exact absurd a1 (q4 X a2 h)
            · exact h
          subst this
          omega
        · exact j5 X a1 (by omega) a3
    · rw [if_neg hlt]
      exact ⟨P0, db, rfl, H, Nat.le_refl _, hle, fun X _ a1 a2 => by omega, Or.inl (by omega)⟩

/-- The search with granularity one. -/
theorem seekFirst_one (L : E.Laws) {s : Sys} {db : Db} {tip : Nat} (H : Here E getKey s db tip) (seqno : Nat)
    (hs : seqno ≤ s.seqAt tip) :
    ∃ P db', seekFirst E seqno 1 db = .ok () db' ∧ Shown E getKey s db' P ∧ P ≤ tip ∧ seqno ≤ s.seqAt P ∧
      SearchEnd s seqno P := by
  have hbs : blockSize = 4096 := rfl
  obtain ⟨P, db', k1, k2, k3, k4, k5⟩ := searchLoop_spec L seqno (tip / blockSize + 2) 0 tip db tip H (by rw [hbs])
    (Or.inl rfl) H.marked hs (by omega) (by rw [hbs]; omega)
  refine ⟨P, db', ?_, k2, k3, k4, k5⟩
  unfold seekFirst
  rw [if_neg (by omega), bind_ok (get_eq db)]
  dsimp only
  rw [H.position, bind_ok k1, bind_ok (get_eq db'), if_pos (Or.inr rfl)]
  rfl

/-- With another granularity, the handle goes on from there. -/
theorem seekFirst_gran (L : E.Laws) {s : Sys} {db db1 : Db} {tip P1 : Nat} (H : Here E getKey s db tip) (seqno g : Nat)
    (hg : 0 < g) (h1 : seekFirst E seqno 1 db = .ok () db1) (hS : Shown E getKey s db1 P1) (hP : P1 ≤ tip)
    (hb : s.timeAt P1 + g < 2 ^ 64) :
    ∃ P db', seekFirst E seqno g db = .ok () db' ∧ Shown E getKey s db' P ∧ P1 ≤ P ∧ P ≤ tip ∧
      (∀ Q, s.HeaderAt Q → P1 < Q → Q ≤ P → g ≠ 1 ∧ s.timeAt Q < (s.timeAt P1 / g + 1) * g) ∧
      (P = tip ∨ g = 1 ∨ ∃ Q, s.HeaderAt Q ∧ P < Q ∧ Q ≤ tip ∧ (∀ X, P < X → X < Q → ¬ s.HeaderAt X) ∧
        (s.timeAt P1 / g + 1) * g ≤ s.timeAt Q) := by
  have hbs : blockSize = 4096 := rfl
  have hloop : searchLoop E seqno (tip / blockSize + 2) 0 tip db = .ok () db1 := by
    unfold seekFirst at h1
    rw [if_neg (by omega), bind_ok (get_eq db)] at h1
    dsimp only at h1
    rw [H.position] at h1
    cases hp : searchLoop E seqno (tip / blockSize + 2) 0 tip db with
    | ok a db' =>
      rw [bind_ok hp, bind_ok (get_eq db'), if_pos (Or.inr rfl)] at h1
      cases h1
      rfl
    | error e db' =>
      rw [bind_error hp] at h1
      cases h1
  unfold seekFirst
  rw [if_neg (by omega), bind_ok (get_eq db)]
  dsimp only
  rw [H.position, bind_ok hloop, bind_ok (get_eq db1), hS.position, hS.time]
  by_cases hc : P1 = tip ∨ g = 1
  · rw [if_pos hc]
    exact ⟨P1, db1, rfl, hS, Nat.le_refl _, hP, fun Q _ a1 a2 => by omega, hc.imp id Or.inl⟩
  · rw [if_neg hc]
    have hnext : (s.timeAt P1 - s.timeAt P1 % g + g) % 2 ^ 64 = (s.timeAt P1 / g + 1) * g := by
      have h3 := Nat.div_add_mod (s.timeAt P1) g
      have h4 : (s.timeAt P1 / g + 1) * g = g * (s.timeAt P1 / g) + g := by
        rw [Nat.add_mul, Nat.mul_comm, Nat.one_mul]
      rw [h4, Nat.mod_eq_of_lt (by omega)]
      omega
    have hlt : s.timeAt P1 < (s.timeAt P1 / g + 1) * g := by
      have h3 := Nat.div_add_mod (s.timeAt P1) g
      have h4 : (s.timeAt P1 / g + 1) * g = g * (s.timeAt P1 / g) + g := by
        rw [Nat.add_mul, Nat.mul_comm, Nat.one_mul]
      have := Nat.mod_lt (s.timeAt P1) hg
      omega
    rw [hnext, if_pos hlt]
    obtain ⟨P, db', k1, k2, k3, k4, k5, k6⟩ := forwardBefore_spec (next := (s.timeAt P1 / g + 1) * g) L H.marked
      (tip / blockSize + 2) db1 P1 hS hP (by rw [hbs]; omega)
    exact ⟨P, db', k1, k2, k3, k4, fun Q a1 a2 a3 => ⟨fun h => hc (Or.inr h), k5 Q a1 a2 a3⟩, k6.imp id Or.inr⟩
end
end Couchstore
