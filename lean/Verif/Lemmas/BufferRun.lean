import Verif.Lemmas.BufferOps

/-! Helper lemmas: sequences of operations through the I/O buffer. -/

namespace Couchstore

theorem bufOp_step {d : Bytes} {L : List Event} {h : BFile} (hi : BInv d h L)
    (hcap : 0 < h.params.readCap) (hmax : 0 < h.params.maxRead) (op : FOp)
    (hrel : op = .release → h.pending.data = []) :
    ∃ L', StepOk d L h op (bufOp op h).1 (bufOp op h).2 L' := by
  cases op with
  | read off n => exact bufPread_step hi hcap hmax off n
  | write off b => exact bufPwrite_step hi hcap off b
  | sync => exact bufSync_step hi
  | release => exact ⟨L, bufFree_step hi (hrel rfl)⟩

theorem BInv.open (f : File) (p : BufParams) (hl : f.log = []) :
    BInv f.disk (BFile.open f p) [] := by
  refine ⟨⟨?_, ?_, ?_, ?_, ?_, ?_, ?_⟩, ?_⟩
  · show replay f.disk f.log = f.disk; rw [hl]; rfl
  · exact (pwriteDisk_nil _ _).symm
  · show ∀ i x, Poss f.disk f.log i x → _; rw [hl]; exact fun _ _ hx => hx
  · intro i x hx; exact absurd hx (by simp [BFile.pending, BFile.open, FileBuf.new])
  · show syncedLen f.disk f.log = _; rw [hl]
  · intro hx; exact absurd rfl hx
  · exact Nat.zero_le _
  · intro bufs hb; cases hb

theorem bufRun_append (a b : List FOp) (h : BFile) :
    bufRun (a ++ b) h = ((bufRun a h).1 ++ (bufRun b (bufRun a h).2).1, (bufRun b (bufRun a h).2).2) := by
  induction a generalizing h with
  | nil => rfl
  | cons op ops ih => simp only [List.cons_append, bufRun, ih]

theorem rawRun_append (a b : List FOp) (f : File) :
    rawRun (a ++ b) f = ((rawRun a f).1 ++ (rawRun b (rawRun a f).2).1, (rawRun b (rawRun a f).2).2) := by
  induction a generalizing f with
  | nil => rfl
  | cons op ops ih => simp only [List.cons_append, rawRun, ih]

/-- `ReleasesOk`, one operation at a time. -/
theorem ReleasesOk.cons {c : Bool} {op : FOp} {r : FRes} {ops : List FOp} {rs : List FRes}
    (h : ReleasesOk c (op :: ops) (r :: rs)) :
    (op = .release → c = true) ∧
      ∃ c', ReleasesOk c' ops rs ∧ (c' = true → (c = true ∧ ∀ off b, op ≠ .write off b) ∨
        op = .sync ∧ r = .done) := by
  cases op with
  | read off n => exact ⟨(nomatch ·), c, h, fun hc => .inl ⟨hc, fun _ _ => (nomatch ·)⟩⟩
  | write off b => exact ⟨(nomatch ·), false, h, (nomatch ·)⟩
  | sync =>
    refine ⟨(nomatch ·), _, h, fun hc => ?_⟩
    rcases Bool.or_eq_true_iff.mp hc with h1 | h1
    · exact .inl ⟨h1, fun _ _ => (nomatch ·)⟩
    · exact .inr ⟨rfl, by simpa using h1⟩
  | release => exact ⟨fun _ => h.1, c, h.2, fun hc => .inl ⟨hc, fun _ _ => (nomatch ·)⟩⟩

theorem ReleasesOk.left {c : Bool} {a b : List FOp} {rs ss : List FRes}
    (hlen : rs.length = a.length) (h : ReleasesOk c (a ++ b) (rs ++ ss)) : ReleasesOk c a rs := by
  induction a generalizing c rs with
  | nil => cases rs <;> trivial
  | cons op ops ih =>
    cases rs with
    | nil => simp at hlen
    | cons r rs =>
      have hl : rs.length = ops.length := by simpa using hlen
      cases op with
      | read off n => exact ih hl h
      | write off b => exact ih hl h
      | sync => exact ih hl h
      | release => exact ⟨h.1, ih hl h.2⟩

/-- What is known after a sequence of operations. -/
structure RunOk (d : Bytes) (L : List Event) (h : BFile) (ops : List FOp) (rs : List FRes)
    (h' : BFile) (L' : List Event) : Prop where
  direct : DirectRun d L ops rs L'
  inv : BInv d h' L'
  params : h'.params = h.params
  faults : h'.raw.faults <:+ h.raw.faults
  log : h.raw.log <:+ h'.raw.log

theorem bufRun_spec {d : Bytes} : ∀ (ops : List FOp) (h : BFile) (L : List Event) (c : Bool),
    BInv d h L → 0 < h.params.readCap → 0 < h.params.maxRead → (c = true → h.pending.data = []) →
    ReleasesOk c ops (bufRun ops h).1 → ∃ L', RunOk d L h ops (bufRun ops h).1 (bufRun ops h).2 L'
  | [], h, L, c, hi, _, _, _, _ =>
    ⟨L, .nil L, hi, rfl, List.suffix_refl _, List.suffix_refl _⟩
  | op :: ops, h, L, c, hi, hcap, hmax, hc, hr => by
    have hr : ReleasesOk c (op :: ops) ((bufOp op h).1 :: (bufRun ops (bufOp op h).2).1) := hr
    obtain ⟨h1, c', h2, h3⟩ := hr.cons
    obtain ⟨L1, hs⟩ := bufOp_step hi hcap hmax op (fun ho => hc (h1 ho))
    have hp := hs.params
    obtain ⟨L2, ht⟩ := bufRun_spec ops _ L1 c' hs.inv (hp ▸ hcap) (hp ▸ hmax) (fun hx => by
      rcases h3 hx with ⟨h4, h5⟩ | ⟨h4, h5⟩
      · exact hs.clean (hc h4) h5
      · exact hs.sync h4 h5) h2
    exact ⟨L2, .cons hs.direct ht.direct, ht.inv, ht.params.trans hp, ht.faults.trans hs.faults,
      hs.log.trans ht.log⟩

theorem bufRun_exact {d : Bytes} : ∀ (ops : List FOp) (h : BFile) (L : List Event) (c : Bool)
    (g : File), BInv d h L → 0 < h.params.readCap → 0 < h.params.maxRead →
    (c = true → h.pending.data = []) → h.raw.faults = [] →
    g.faults = [] → g.log = L → g.disk = replay d L →
    ReleasesOk c ops (rawRun ops g).1 → (bufRun ops h).1 = (rawRun ops g).1 ∧
      BInv d (bufRun ops h).2 (rawRun ops g).2.log ∧ (bufRun ops h).2.params = h.params ∧
      (bufRun ops h).2.raw.faults = [] ∧ (rawRun ops g).2.faults = [] ∧
      (rawRun ops g).2.disk = replay d (rawRun ops g).2.log
  | [], h, L, c, g, hi, _, _, _, hf, g1, g2, g3, _ => by
    subst g2
    exact ⟨rfl, hi, rfl, hf, g1, g3⟩
  | op :: ops, h, L, c, g, hi, hcap, hmax, hc, hf, g1, g2, g3, hr => by
    have hr : ReleasesOk c (op :: ops) ((rawOp op g).1 :: (rawRun ops (rawOp op g).2).1) := hr
    obtain ⟨h1, c', h2, h3⟩ := hr.cons
    obtain ⟨L1, hs⟩ := bufOp_step hi hcap hmax op (fun ho => hc (h1 ho))
    have hp := hs.params
    obtain ⟨e1, e2, e3, e4⟩ := hs.exact hf g g1 g2 g3
    have := bufRun_exact ops _ L1 c' _ hs.inv (hp ▸ hcap) (hp ▸ hmax) (fun hx => by
      rcases h3 hx with ⟨h4, h5⟩ | ⟨h4, h5⟩
      · exact hs.clean (hc h4) h5
      · exact hs.sync h4 (e1 ▸ h5)) (List.eq_nil_of_suffix_nil (hf ▸ hs.faults)) e4 e2 e3 h2
    obtain ⟨t1, t2, t3, t4, t5, t6⟩ := this
    refine ⟨?_, t2, t3.trans hp, t4, t5, t6⟩
    show _ :: _ = _ :: _
    rw [t1, e1]

theorem DirectRun.length {d : Bytes} {L L' : List Event} {ops : List FOp} {rs : List FRes}
    (h : DirectRun d L ops rs L') : rs.length = ops.length := by
  induction h with
  | nil => rfl
  | cons _ _ ih => simp [ih]

theorem bufRun_length (ops : List FOp) (h : BFile) : (bufRun ops h).1.length = ops.length := by
  induction ops generalizing h with
  | nil => rfl
  | cons op ops ih => simp [bufRun, ih]

theorem rawRun_length (ops : List FOp) (f : File) : (rawRun ops f).1.length = ops.length := by
  induction ops generalizing f with
  | nil => rfl
  | cons op ops ih => simp [rawRun, ih]

/-- The last of some operations may be a release only when nothing is pending. -/
theorem ReleasesOk.last {d : Bytes} : ∀ (ops : List FOp) (h : BFile) (L : List Event) (c : Bool)
    (op : FOp), BInv d h L → 0 < h.params.readCap → 0 < h.params.maxRead →
    (c = true → h.pending.data = []) → ReleasesOk c (ops ++ [op]) (bufRun (ops ++ [op]) h).1 →
    op = .release → (bufRun ops h).2.pending.data = []
  | [], h, L, c, op, _, _, _, hc, hr, ho => by
    subst ho
    exact hc hr.1
  | o :: ops, h, L, c, op, hi, hcap, hmax, hc, hr, ho => by
    have hr : ReleasesOk c (o :: (ops ++ [op])) ((bufOp o h).1 :: (bufRun (ops ++ [op]) (bufOp o h).2).1) := hr
    obtain ⟨h1, c', h2, h3⟩ := hr.cons
    obtain ⟨L1, hs⟩ := bufOp_step hi hcap hmax o (fun ho => hc (h1 ho))
    have hp := hs.params
    exact ReleasesOk.last ops _ L1 c' op hs.inv (hp ▸ hcap) (hp ▸ hmax) (fun hx => by
      rcases h3 hx with ⟨h4, h5⟩ | ⟨h4, h5⟩
      · exact hs.clean (hc h4) h5
      · exact hs.sync h4 h5) h2 ho

end Couchstore
