import Verif.Lemmas.Multi

/-! Helper lemmas: every reachable handle satisfies the invariant, and its answers are determined by
the documents it holds. -/

namespace Couchstore

variable {σ : Type}

theorem Answers.of_sp {α : Type} {m : DbM α} {db : Db} {x : α} {R : Err → Db → Prop}
    (h : Sp m db (fun r d => RD db d ∧ r = x) R) (hR : ∀ e d, R e d → RD db d ∧ db.file.faults ≠ []) :
    Answers m db (.ok x) :=
  Sp.mono h (fun r d h => ⟨h.1, by rw [h.2]⟩) fun e d h => ⟨(hR e d h).1, Or.inl (hR e d h).2⟩

/-- Feeding a recording callback gives back the list. -/
theorem feed_record (l acc : List DocInfo) : feed recordCb l acc = (acc ++ l, none) := by
  induction l generalizing acc with
  | nil => simp [feed]
  | cons d l ih => simp [feed, recordCb, ih]

theorem answers_scan {m : DbM (List DocInfo × Option Err)} {db : Db} {l : List DocInfo}
    (h : Sp m db.calm (fun r d => RD db.calm d ∧ Fed recordCb db.calm.file l [] r) (fun _ _ => False)) :
    answer m db = .ok (l, none) := by
  apply Answers.answer_eq
  refine Sp.mono h ?_ fun _ _ h => h.elim
  rintro r d ⟨h1, h2 | ⟨h2, -⟩⟩
  · refine ⟨h1, ?_⟩
    rw [← h2, feed_record]; rfl
  · exact absurd rfl h2

/-- The statistics of a list of documents. -/
def statsOf (h : Header) (ids : List Entry) : Nat × Nat × Nat × Nat × Nat :=
  let s := docStats (ids.map (·.info))
  (h.updateSeq, s.notDeleted, s.deleted,
    s.size % 2 ^ 48 + rootSize h.byIdRoot + rootSize h.bySeqRoot + rootSize h.localRoot, h.purgeSeq)

theorem stats_lt {ids : List Entry} (h : ids.length < 2 ^ 40) :
    (docStats (ids.map (·.info))).notDeleted < 2 ^ 40 ∧ (docStats (ids.map (·.info))).deleted < 2 ^ 40 := by
  unfold docStats
  dsimp only
  have h1 := List.countP_le_length (p := fun d : DocInfo => !d.deleted) (l := ids.map (·.info))
  have h2 := List.countP_le_length (p := fun d : DocInfo => d.deleted) (l := ids.map (·.info))
  rw [List.length_map] at h1 h2
  omega

theorem stats_total (ds : List DocInfo) : (docStats ds).notDeleted + (docStats ds).deleted = ds.length := by
  unfold docStats
  dsimp only
  induction ds with
  | nil => rfl
  | cons d ds ih =>
    simp only [List.countP_cons, List.length_cons]
    cases d.deleted <;> simp <;> omega

theorem info_answer (E : Env) {db : Db} {ids seqs locs} (inv : Inv E db ids seqs locs) :
    ∃ r, answer dbInfo db = .ok r ∧
      (r.lastSequence, r.docCount, r.deletedCount, r.spaceUsed, r.purgeSeq) = statsOf db.header ids ∧
      r.fileSize = db.file.pos ∧ r.headerPosition = db.header.position := by
  have h := dbInfo_spec E db.calm inv.calm
  obtain ⟨l1, l2⟩ := stats_lt inv.few
  unfold answer
  cases hx : dbInfo db.calm with
  | ok r d =>
    obtain ⟨-, h1, h2, h3, h4, h5, h6, h7⟩ := h.ok hx
    refine ⟨r, rfl, ?_, h5, h6⟩
    rw [Nat.mod_eq_of_lt l1] at h2
    rw [Nat.mod_eq_of_lt l2] at h3
    rw [h1, h2, h3, h4, h7]
    rfl
  | error e d => exact (h.error hx).elim

/-- What a question is answered, in terms of the documents held. -/
def specAsk (E : Env) (h : Header) (ids seqs : List Entry) (locs : List KV) : Query → Reply
  | .docinfo id => .doc (foundOr (entFind id ids))
  | .docinfoSeq s => .doc (foundOr (seqFind (s % 2 ^ 48) seqs))
  | .open id dec => .body (openIdAns E dec (entFind id ids))
  | .changes s opts => .docs (.ok ((seqs.map (·.info)).filter fun d => decide (s ≤ d.dbSeq) && opts.selects d, none))
  | .allDocs start opts =>
    .docs (.ok ((ids.map (·.info)).filter fun d => decide (start.getD [] ≤ d.id) && opts.selects d, none))
  | .docinfos ks => .docs (.ok ((sortBy (fun a b => ebinCmp a b != .gt) ks).filterMap fun k =>
      (entFind k ids).map (·.info), none))
  | .docinfosSeq ss => .docs (.ok ((sortBy (fun a b => decide (a ≤ b)) ss).filterMap fun s =>
      (seqFind s seqs).map (·.info), none))
  | .range lo hi => .docs (.ok ((ids.map (·.info)).filter fun d =>
      decide (lo ≤ d.id) && hi.all (fun h => decide (d.id ≤ h)), none))
  | .rangeSeq lo hi => .docs (.ok ((seqs.map (·.info)).filter fun d =>
      decide (lo ≤ d.dbSeq) && hi.all (fun h => decide (d.dbSeq ≤ h)), none))
  | .count lo hi => .num (.ok ((seqs.map (·.info)).countP fun d =>
      decide (lo % 2 ^ 48 ≤ d.dbSeq) && decide (d.dbSeq ≤ hi % 2 ^ 48)))
  | .localDoc id => .loc (localOr id (kvFind id locs))
  | .info => .stats (.ok (statsOf h ids))

theorem ask_eq (E : Env) (L : E.Laws) {db : Db} {ids seqs locs} (inv : Inv E db ids seqs locs)
    (hd : db.dropped = false) (q : Query) (hq : q.Ok) : ask E db q = specAsk E db.header ids seqs locs q := by
  have hdc : db.calm.dropped = false := hd
  have ht : ∀ b, TolOk b recordCb db.calm := fun b _ => ⟨fun _ _ => rfl, rfl⟩
  cases q with
  | docinfo id => exact congrArg Reply.doc (docinfoById_spec E L _ inv.calm hdc id).answer_eq
  | docinfoSeq s => exact congrArg Reply.doc (docinfoBySequence_spec E L _ inv.calm hdc s).answer_eq
  | «open» id dec => exact congrArg Reply.body (openDocument_spec E L _ inv.calm hdc id dec).answer_eq
  | changes s opts =>
    exact congrArg Reply.docs
      (answers_scan (changesSince_spec E L _ inv.calm hdc s hq opts recordCb (ht _) []))
  | allDocs st opts =>
    exact congrArg Reply.docs
      (answers_scan (allDocs_spec E L _ inv.calm hdc st opts recordCb (ht _) []))
  | docinfos ks =>
    exact congrArg Reply.docs
      (answers_scan (docinfosById_spec E L _ inv.calm hdc ks hq.1 hq.2 recordCb []))
  | docinfosSeq ss =>
    exact congrArg Reply.docs
      (answers_scan (docinfosBySequence_spec E L _ inv.calm hdc ss hq.1 hq.2.1 hq.2.2 recordCb []))
  | range lo hi =>
    have := docinfosById_ranges_spec E L _ inv.calm hdc lo hi recordCb []
    have hb : boundKeys lo hi = lo :: hi.toList := by cases hi <;> rfl
    rw [hb] at this
    exact congrArg Reply.docs (answers_scan this)
  | rangeSeq lo hi =>
    exact congrArg Reply.docs
      (answers_scan (docinfosBySequence_ranges_spec E L _ inv.calm hdc lo hq.1 hi hq.2 recordCb []))
  | count lo hi =>
    exact congrArg Reply.num
      (Answers.of_sp (changesCount_spec E L _ inv.calm lo hi) fun _ _ h => h).answer_eq
  | localDoc id => exact congrArg Reply.loc (openLocalDocument_spec E L _ inv.calm hdc id).answer_eq
  | info =>
    obtain ⟨r, h1, h2, -, -⟩ := info_answer E inv
    unfold ask specAsk
    refine congrArg Reply.stats ?_
    unfold answer at h1 ⊢
    simp only [bind, EStateM.bind]
    cases hx : dbInfo db.calm with
    | ok a d =>
      rw [hx] at h1
      simp only [Except.ok.injEq] at h1
      subst h1
      exact congrArg Except.ok h2
    | error e d => rw [hx] at h1; cases h1

theorem docinfoById_answer (E : Env) (L : E.Laws) {db : Db} {ids seqs locs} (inv : Inv E db ids seqs locs)
    (hd : db.dropped = false) (id : Bytes) : answer (docinfoById E id) db = foundOr (entFind id ids) :=
  (docinfoById_spec E L _ inv.calm hd id).answer_eq

theorem docinfoBySequence_answer (E : Env) (L : E.Laws) {db : Db} {ids seqs locs}
    (inv : Inv E db ids seqs locs) (hd : db.dropped = false) (s : Nat) :
    answer (docinfoBySequence E s) db = foundOr (seqFind (s % 2 ^ 48) seqs) :=
  (docinfoBySequence_spec E L _ inv.calm hd s).answer_eq

theorem openDocument_answer (E : Env) (L : E.Laws) {db : Db} {ids seqs locs} (inv : Inv E db ids seqs locs)
    (hd : db.dropped = false) (id : Bytes) (dec : Bool) :
    answer (openDocument E id dec) db = openIdAns E dec (entFind id ids) :=
  (openDocument_spec E L _ inv.calm hd id dec).answer_eq

/-- A document is known iff it is one of the documents held. -/
theorem known_iff (E : Env) (L : E.Laws) {db : Db} {ids seqs locs} (inv : Inv E db ids seqs locs)
    (hd : db.dropped = false) (d : DocInfo) :
    answer (docinfoById E d.id) db = .ok d ↔ d ∈ ids.map (·.info) := by
  rw [docinfoById_answer E L inv hd]
  constructor
  · intro h
    cases hf : entFind d.id ids with
    | none => rw [hf] at h; cases h
    | some e =>
      rw [hf] at h
      obtain rfl : e.info = d := by cases h; rfl
      exact List.mem_map_of_mem (f := fun e : Entry => e.info) (mem_of_entFind hf).1
  · intro h
    obtain ⟨e, he, rfl⟩ := List.mem_map.mp h
    rw [entFind_of_mem inv.idSorted he]
    rfl

/-! ### The arguments of a save -/

theorem assignAll_false {opts : SaveOpts} (h : opts.asIs = false) (its : List SaveItem) (seq : Nat) :
    (assignAll opts seq its).1.map (·.dbSeq) = (List.range its.length).map (seq + 1 + ·) ∧
      (assignAll opts seq its).2 = seq + its.length := by
  induction its generalizing seq with
  | nil => exact ⟨rfl, rfl⟩
  | cons it its ih =>
    have e : assignSeq opts seq it.info = (seq + 1, { it.info with dbSeq := seq + 1 }) := by
      unfold assignSeq; rw [h]; rfl
    simp only [assignAll, e, List.map_cons, List.length_cons, List.range_succ_eq_map, List.map_map]
    obtain ⟨h1, h2⟩ := ih (seq + 1)
    rw [h1, h2]
    refine ⟨?_, by omega⟩
    congr 1
    apply List.map_congr_left
    intro i _
    simp only [Function.comp_apply]
    omega

theorem assignAll_true {opts : SaveOpts} (h : opts.asIs = true) (its : List SaveItem) (seq : Nat) :
    (assignAll opts seq its).1 = its.map (·.info) ∧
      (assignAll opts seq its).2 = its.foldl (fun s it => max s it.info.dbSeq) seq := by
  induction its generalizing seq with
  | nil => exact ⟨rfl, rfl⟩
  | cons it its ih =>
    have e : assignSeq opts seq it.info = (max seq it.info.dbSeq, it.info) := by
      unfold assignSeq; rw [h]; rfl
    simp only [assignAll, e, List.map_cons, List.foldl_cons]
    obtain ⟨h1, h2⟩ := ih (max seq it.info.dbSeq)
    exact ⟨by rw [h1], h2⟩

theorem foldl_max_lt (its : List SaveItem) (seq b : Nat) (h0 : seq < b) (h : ∀ it ∈ its, it.info.dbSeq < b) :
    its.foldl (fun s it => max s it.info.dbSeq) seq < b := by
  induction its generalizing seq with
  | nil => exact h0
  | cons it its ih =>
    rw [List.foldl_cons]
    exact ih _ (by have := h it (by simp); omega) fun it hit => h it (by simp [hit])

theorem SaveArgs.fits {E : Env} (L : E.Laws) {db : Db} {ids seqs locs} (inv : Inv E db ids seqs locs)
    (hd : db.dropped = false) {opts : SaveOpts} {items : List SaveItem} (h : SaveArgs E db opts items) :
    BatchFits E db opts items ids := by
  have hfew : ids.length + items.length < 2 ^ 40 := by
    obtain ⟨r, h1, h2, -, -⟩ := info_answer E inv
    have h3 := h.few r h1
    have h4 := stats_total (ids.map (·.info))
    unfold statsOf at h2
    simp only [Prod.mk.injEq] at h2
    rw [List.length_map] at h4
    omega
  cases ha : opts.asIs with
  | false =>
    obtain ⟨h1, h2⟩ := assignAll_false ha items db.header.updateSeq
    have hroom := h.room ha
    refine ⟨h.item, h.idsNodup, ?_, by rw [h2]; exact hroom, ?_, hfew⟩
    · rw [h1]
      unfold List.Nodup
      rw [List.pairwise_map]
      exact List.nodup_range.imp fun h h0 => h (by omega)
    · intro d hdm x hx h0
      have hmem : d.dbSeq ∈ (assignAll opts db.header.updateSeq items).1.map (·.dbSeq) :=
        List.mem_map_of_mem (f := fun d : DocInfo => d.dbSeq) hdm
      rw [h1] at hmem
      obtain ⟨i, -, hi⟩ := List.mem_map.mp hmem
      have := inv.upd x hx
      omega
  | true =>
    obtain ⟨h1, h2⟩ := assignAll_true ha items db.header.updateSeq
    refine ⟨h.item, h.idsNodup, ?_, ?_, ?_, hfew⟩
    · rw [h1, List.map_map]; exact h.seqsNodup ha
    · rw [h2]; exact foldl_max_lt _ _ _ inv.updLt (h.seqLt ha)
    · intro d hdm x hx h0
      rw [h1] at hdm
      obtain ⟨it, hit, rfl⟩ := List.mem_map.mp hdm
      refine h.free ha it hit x.info ?_
      rw [docinfoBySequence_answer E L inv hd, Nat.mod_eq_of_lt (h.seqLt ha it hit), ← h0,
        seqFind_of_mem inv.seqSorted (inv.perm.mem_iff.mpr hx)]
      rfl

theorem LocalArgs.pairwise {ds : List LocalDoc} (h : LocalArgs ds) : ds.Pairwise fun a b => a.id ≠ b.id := by
  have := h.idsNodup
  unfold List.Nodup at this
  rw [List.pairwise_map] at this
  exact this

theorem Sp.after {S α : Type} {m : EStateM Err S α} {s : S} {Q R} (h : Sp m s Q R) :
    (∃ a, Q a (after m s)) ∨ ∃ e, R e (after m s) := by
  unfold Couchstore.after
  unfold Sp at h
  cases hx : m s with
  | ok a s' => rw [hx] at h; exact Or.inl ⟨a, h⟩
  | error e s' => rw [hx] at h; exact Or.inr ⟨e, h⟩

theorem FailDb.inv {E : Env} {db db' : Db} {e : Err} {ids seqs locs} (h : FailDb db e db')
    (inv : Inv E db ids seqs locs) : Inv E db' ids seqs locs := inv.ext (by rw [h.1]) h.2.1

/-- The invariant and an open handle. -/
def Good (E : Env) (db : Db) : Prop := (∃ ids seqs locs, Inv E db ids seqs locs) ∧ db.dropped = false

theorem Fresh.good {E : Env} {db : Db} (h : Fresh db) : Good E db := by
  refine ⟨⟨[], [], [], h.wf, h.pos, h.thr, ?_, ?_, ?_, List.Pairwise.nil, List.Pairwise.nil,
    List.Pairwise.nil, List.Perm.nil, by simp, by simp, h.empty.2.2.2, by simp, by simp⟩, h.opened⟩
  · rw [h.empty.1]; rfl
  · rw [h.empty.2.1]; rfl
  · rw [h.empty.2.2.1]; rfl

theorem Inv.setFaults {E : Env} {db : Db} {ids seqs locs} (inv : Inv E db ids seqs locs) (fs : List Fault) :
    Inv E { db with file := { db.file with faults := fs } } ids seqs locs := by
  have hk : ∀ f : File, Keep f { f with faults := fs } := fun f => ⟨fun _ _ _ => rfl, rfl, rfl, Nat.le_refl _⟩
  exact ⟨⟨inv.wf.pos_le, inv.wf.crc⟩, inv.pos, inv.thr, inv.idRoot.keep (hk _), inv.seqRoot.keep (hk _),
    inv.locRoot.keep (hk _), inv.idSorted, inv.seqSorted, inv.locSorted, inv.perm, inv.ok, inv.upd, inv.updLt,
    fun e he => (inv.body e he).keep (hk _), inv.few⟩

theorem Step.good {E : Env} (L : E.Laws) {db db' : Db} (h : Step E db db') (g : Good E db) :
    Good E db' ∧ db.header.updateSeq ≤ db'.header.updateSeq := by
  obtain ⟨⟨ids, seqs, locs, inv⟩, hd⟩ := g
  cases h with
  | faults fs => exact ⟨⟨⟨ids, seqs, locs, inv.setFaults fs⟩, hd⟩, Nat.le_refl _⟩
  | save opts cb items u args =>
    rcases (saveDocuments_spec E L opts cb items u _ inv hd (args.fits L inv hd)).after with ⟨r, h⟩ | ⟨e, h⟩
    · obtain ⟨-, h0, h1, -, -, es, ids', seqs', -, -, -, h2⟩ := h
      exact ⟨⟨⟨ids', seqs', locs, h2⟩, h1⟩, by rw [h0]; exact (assignAll_le _ _ _).1⟩
    · exact ⟨⟨⟨ids, seqs, locs, h.inv inv⟩, by rw [h.1]; exact hd⟩, by rw [h.1]; exact Nat.le_refl _⟩
  | saveLocal d args =>
    rcases (saveLocalDocument_spec E L _ inv hd d (args.item d (by simp))).after with ⟨r, h⟩ | ⟨e, h⟩
    · obtain ⟨-, h1, locs', h2, -⟩ := h
      exact ⟨⟨⟨ids, seqs, locs', h2⟩, by rw [h1]; exact hd⟩, by rw [h1]; exact Nat.le_refl _⟩
    · exact ⟨⟨⟨ids, seqs, locs, h.inv inv⟩, by rw [h.1]; exact hd⟩, by rw [h.1]; exact Nat.le_refl _⟩
  | saveLocals ds args =>
    rcases (saveLocalDocuments_spec E L _ inv hd ds args.item args.pairwise).after with ⟨r, h⟩ | ⟨e, h⟩
    · obtain ⟨-, h1, locs', h2, -⟩ := h
      exact ⟨⟨⟨ids, seqs, locs', h2⟩, by rw [h1]; exact hd⟩, by rw [h1]; exact Nat.le_refl _⟩
    · exact ⟨⟨⟨ids, seqs, locs, h.inv inv⟩, by rw [h.1]; exact hd⟩, by rw [h.1]; exact Nat.le_refl _⟩
  | updateLocals ds args hdel =>
    rcases (updateLocalDocuments_spec E L _ inv hd ds args.item args.pairwise hdel).after with ⟨r, h⟩ | ⟨e, h⟩
    · obtain ⟨-, h1, locs', h2, -⟩ := h
      exact ⟨⟨⟨ids, seqs, locs', h2⟩, by rw [h1]; exact hd⟩, by rw [h1]; exact Nat.le_refl _⟩
    · exact ⟨⟨⟨ids, seqs, locs, h.inv inv⟩, by rw [h.1]; exact hd⟩, by rw [h.1]; exact Nat.le_refl _⟩

theorem Steps.good {E : Env} (L : E.Laws) {db db' : Db} (h : Steps E db db') (g : Good E db) :
    Good E db' ∧ db.header.updateSeq ≤ db'.header.updateSeq := by
  induction h with
  | refl => exact ⟨g, Nat.le_refl _⟩
  | step _ h2 ih =>
    obtain ⟨i1, i2⟩ := h2.good L ih.1
    exact ⟨i1, Nat.le_trans ih.2 i2⟩

end Couchstore
