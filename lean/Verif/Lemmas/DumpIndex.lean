import Verif.Spec.DumpIndex
import Verif.Lemmas.IndexHeader
import Verif.Lemmas.ViewCompact
import Verif.Lemmas.Recover

/-! The dump of an index file. -/

namespace Couchstore

theorem viewHeaderAtPos_spec {f : File} (hf : f.faults = []) (pos : Nat) :
    (f.disk[pos]? = some 1 → viewHeaderAtPos pos f = .ok () f) ∧
    (f.disk[pos]? ≠ some 1 → ∃ e, e ≠ .allocFail ∧ viewHeaderAtPos pos f = .error e f) := by
  have hs := pread_spec pos 1 f
  unfold Sp at hs
  unfold viewHeaderAtPos
  cases hp : pread pos 1 f with
  | error e g => rw [hp] at hs; exact absurd hf hs.2
  | ok got g =>
    rw [hp] at hs
    obtain ⟨h1, k, h2, rfl, h3⟩ := hs
    obtain rfl := h1.same hf
    have hk : k = 1 := by
      by_contra h
      exact h3 (by omega) hf
    subst hk
    cases hd : g.disk[pos]? with
    | none =>
      have : slice g.disk pos 1 = [] := by
        unfold slice
        rw [List.drop_eq_nil_of_le (by rwa [List.getElem?_eq_none_iff] at hd)]
        rfl
      rw [this]
      exact ⟨(fun h => nomatch h), fun _ => ⟨_, by simp, rfl⟩⟩
    | some t =>
      rw [slice_one hd]
      dsimp only
      constructor
      · intro h
        obtain rfl := Option.some.inj h
        rfl
      · intro h
        have ht : t ≠ 1 := fun e => h (by rw [e])
        by_cases h0 : t = 0
        · rw [if_pos h0]; exact ⟨_, by simp, rfl⟩
        · rw [if_neg h0, if_pos ht]; exact ⟨_, by simp, rfl⟩

/-- The last block marked as one of a header is found. -/
theorem findViewHeader_spec {f : File} (hf : f.faults = []) {n : Nat} (hm : f.disk[n * blockSize]? = some 1) :
    ∀ (m : Nat) (last : Err), n ≤ m → (∀ k, n < k → k ≤ m → f.disk[k * blockSize]? ≠ some 1) →
      findViewHeader last m f = .ok (n * blockSize) f
  | 0, last, hn, _ => by
    obtain rfl : n = 0 := by omega
    have := (viewHeaderAtPos_spec hf 0).1 (by simpa using hm)
    simp only [findViewHeader, this, Nat.zero_mul]
  | m + 1, last, hn, hl => by
    by_cases h : n = m + 1
    · subst h
      simp only [findViewHeader, (viewHeaderAtPos_spec hf _).1 hm]
    · obtain ⟨e, h1, h2⟩ := (viewHeaderAtPos_spec hf ((m + 1) * blockSize)).2 (hl (m + 1) (by omega) (Nat.le_refl _))
      simp only [findViewHeader, h2, if_neg h1]
      exact findViewHeader_spec hf hm m _ (by omega) fun k hk hk' => hl k hk (by omega)

theorem indexRow_emit {specs : List ReducerSpec} {m : Emit} (hm : m.Fits specs) {v : Bytes} {rest : List Bytes} (hv : m.values = v :: rest)
    (st : IndexState) :
    indexRow st m.kv.1 (some m.kv.2) = ({ st with rows := st.rows ++ [⟨m.json, v ++ encodeSized 3 rest⟩] }, none) := by
  obtain ⟨h1, -⟩ := hm
  have hk : m.kv.1 = enc16 m.json.length ++ (m.json ++ m.doc) := by
    unfold Emit.kv encodeViewKey
    simp
  have hv' : m.kv.2 = (enc16 m.part ++ beEnc 3 v.length) ++ (v ++ encodeSized 3 rest) := by
    unfold Emit.kv encodeViewValue
    rw [hv]
    unfold encodeSized
    simp
  have h16 : ∀ n, (enc16 n).length = 2 := fun n => by unfold enc16; simp
  have h5 : ((enc16 m.part ++ beEnc 3 v.length)).length = 5 := by
    rw [List.length_append, h16, length_beEnc]
  have ht : m.kv.1.take 2 = enc16 m.json.length := by
    rw [hk, ← h16 m.json.length, List.take_left]
  have hd : m.kv.1.drop 2 = m.json ++ m.doc := by
    rw [hk, ← h16 m.json.length, List.drop_left]
  have hb : beDec (m.kv.1.take 2) = m.json.length := by
    rw [ht]
    unfold enc16
    rw [beDec_beEnc]
    simpa using h1
  have hvd : m.kv.2.drop 5 = v ++ encodeSized 3 rest := by rw [hv', ← h5, List.drop_left]
  unfold indexRow
  dsimp only
  rw [hb, hd, hvd, List.take_left, if_neg]
  rw [hk, hv']
  simp only [List.length_append, h16, length_beEnc]
  omega

theorem visit_rows {specs : List ReducerSpec} :
    ∀ (ms : List Emit) (st : IndexState), (∀ m ∈ ms, m.Fits specs ∧ m.values ≠ []) →
      visit indexRow (ms.map fun m => (m.kv.1, some m.kv.2)) st =
        ({ st with rows := st.rows ++ ms.map fun m => ⟨m.json, m.values.headD [] ++ encodeSized 3 m.values.tail⟩ }, none)
  | [], st, _ => by simp [visit]
  | m :: ms, st, h => by
    obtain ⟨h1, h2⟩ := h m List.mem_cons_self
    obtain ⟨v, rest, hv⟩ := List.exists_cons_of_ne_nil h2
    rw [List.map_cons]
    unfold visit
    rw [indexRow_emit h1 hv]
    dsimp only
    rw [visit_rows ms _ fun x hx => h x (List.mem_cons_of_mem _ hx)]
    simp [hv]

/-- The rows of a view. -/
def viewRows (v : View) : List IndexRow := v.emits.map fun m => ⟨m.json, m.values.headD [] ++ encodeSized 3 m.values.tail⟩

theorem dumpView_spec {D : Type} [LinearOrder D] (E : Env) (L : E.Laws) (e : CollateEnv D) (round : Rat → D)
    (ucol : Bytes → Bytes → Int) (H : e.Ok round ucol) (v : View) (p : NodePointer) (hv : v.Ok e)
    (hs : SortedKV (viewBtreeCmp e) (v.emits.map Emit.kv)) (f : File) (w : f.WF) (hf : f.faults = []) (hr : v.At E f (some p))
    (hm : ∀ m ∈ v.emits, m.values ≠ []) :
    btreeLookup E ⟨viewBtreeCmp e, false, indexRow, none⟩ true p.pointer [[]] ⟨[], false⟩ f = .ok (⟨viewRows v, false⟩, none) f := by
  obtain ⟨hK, hred, room⟩ := hv
  have ne : ∀ k, v.keys k → k ≠ [] := by
    rintro k hk rfl
    obtain ⟨v, d, -, h⟩ := hK.key [] hk
    have := congrArg List.length h
    unfold encodeViewKey at this
    simp only [List.length_append, enc16, length_beEnc, List.length_nil] at this
    omega
  have ok := viewRq_ok e round ucol H v.keys hK hred room 2 2 emptyBitmap (by omega)
  have hlook : LookOk (σ := IndexState) ⟨viewBtreeCmp e, false, indexRow, none⟩ (fun k => v.keys k ∨ k = []) :=
    ⟨lookupCompare_laws ok.cmp ne, (fun h => nomatch h), rfl⟩
  have hfold := btreeLookup_fold (X := viewIdx v.keys v.specs) E L hlook
    (fun kv h => ⟨Or.inl (ok.entry kv h).1, (ok.entry kv h).2.1⟩) p _ f w
    hr.1 (sorted_lookup hs fun kv hkv => ne _ (hr.1.valid kv hkv).1) (fun h => nomatch h) [] none (Or.inr rfl) (by simp) ⟨[], false⟩
  unfold Sp at hfold
  dsimp only [boundKeys, Option.toList] at hfold
  cases hb : btreeLookup E _ true p.pointer [[]] _ f with
  | error e f => rw [hb] at hfold; exact hfold.elim
  | ok r g =>
    rw [hb] at hfold
    obtain ⟨hrf, hd⟩ := hfold
    obtain rfl := hrf.same hf
    rw [all_events, List.map_map] at hd
    rcases hd with hd | ⟨hd, -⟩
    · have hvr := visit_rows v.emits ⟨[], false⟩ fun m hx => ⟨hr.2 m hx, hm m hx⟩
      have : r = (⟨viewRows v, false⟩, none) := by
        rw [← Prod.eta r, ← hd]
        refine Eq.trans hvr ?_
        simp [viewRows]
      rw [this]
    · exact absurd hf hd

theorem dumpViews_spec {D : Type} [LinearOrder D] (E : Env) (L : E.Laws) (e : CollateEnv D) (round : Rat → D)
    (ucol : Bytes → Bytes → Int) (H : e.Ok round ucol) (f : File) (w : f.WF) (hf : f.faults = []) :
    ∀ (views : List View) (roots : List (Option NodePointer)) (shown : List (List IndexRow)) (total : Nat),
      List.Forall₂ (fun (v : View) r => v.At E f r) views roots →
      (∀ v ∈ views, v.Ok e ∧ SortedKV (viewBtreeCmp e) (v.emits.map Emit.kv) ∧ v.emits ≠ [] ∧ ∀ m ∈ v.emits, m.values ≠ []) →
      dumpViews E e roots shown total f =
        .done (shown ++ views.map viewRows) ((views.getLast?.map fun v => v.emits.length).getD total)
  | [], _, shown, total, .nil, _ => by simp [dumpViews]
  | v :: views, _, shown, total, .cons (b := r) h1 h2, hv => by
    obtain ⟨g1, g2, g3, g4⟩ := hv v List.mem_cons_self
    cases r with
    | none =>
      have : v.emits.map Emit.kv = [] := h1.1
      exact absurd (List.map_eq_nil_iff.mp this) g3
    | some p =>
      unfold dumpViews
      rw [dumpView_spec E L e round ucol H v p g1 g2 f w hf h1 g4]
      dsimp only
      rw [if_neg (by simp), dumpViews_spec E L e round ucol H f w hf views _ _ _ h2 fun x hx => hv x (List.mem_cons_of_mem _ hx)]
      have hl : (viewRows v).length = v.emits.length := by unfold viewRows; simp
      rw [hl]
      cases views with
      | nil => simp
      | cons a l => simp [List.getLast?_eq_some_getLast]

/-- The first view without entries. -/
theorem dumpViews_empty {D : Type} [LinearOrder D] (E : Env) (L : E.Laws) (e : CollateEnv D) (round : Rat → D)
    (ucol : Bytes → Bytes → Int) (H : e.Ok round ucol) (f : File) (w : f.WF) (hf : f.faults = []) :
    ∀ (views : List View) (roots : List (Option NodePointer)) (shown : List (List IndexRow)) (total : Nat),
      List.Forall₂ (fun (v : View) r => v.At E f r) views roots →
      (∀ v ∈ views, v.Ok e ∧ SortedKV (viewBtreeCmp e) (v.emits.map Emit.kv) ∧ ∀ m ∈ v.emits, m.values ≠ []) →
      (∃ v ∈ views, v.emits = []) → dumpViews E e roots shown total f = .undefined
  | [], _, _, _, .nil, _, hx => by obtain ⟨v, hv, -⟩ := hx; cases hv
  | v :: views, _, shown, total, .cons (b := r) h1 h2, hv, hx => by
    obtain ⟨g1, g2, g4⟩ := hv v List.mem_cons_self
    have hnone := h1.1.none_iff
    cases r with
    | none => rfl
    | some p =>
      unfold dumpViews
      rw [dumpView_spec E L e round ucol H v p g1 g2 f w hf h1 g4]
      dsimp only
      rw [if_neg (by simp)]
      refine dumpViews_empty E L e round ucol H f w hf views _ _ _ h2 (fun x hx => hv x (List.mem_cons_of_mem _ hx)) ?_
      obtain ⟨x, hxm, hx0⟩ := hx
      rcases List.mem_cons.mp hxm with rfl | hxm
      · rw [hx0] at hnone
        cases hnone.mpr rfl
      · exact ⟨x, hxm, hx0⟩

/-- Of two marked blocks it is not the first that is found. -/
theorem findViewHeader_later {f : File} (hf : f.faults = []) {n m : Nat} (last : Err) (hn : n ≤ m) (hm : f.disk[n * blockSize]? = some 1) :
    ∃ k, n ≤ k ∧ findViewHeader last m f = .ok (k * blockSize) f := by
  have hP : ∃ k, n ≤ k ∧ k ≤ m ∧ f.disk[k * blockSize]? = some 1 ∧ ∀ j, k < j → j ≤ m → f.disk[j * blockSize]? ≠ some 1 := by
    induction m with
    | zero =>
      obtain rfl : n = 0 := by omega
      exact ⟨0, Nat.le_refl _, Nat.le_refl _, hm, fun j h1 h2 => absurd h1 (by omega)⟩
    | succ m ih =>
      by_cases h : f.disk[(m + 1) * blockSize]? = some 1
      · exact ⟨m + 1, hn, Nat.le_refl _, h, fun j h1 h2 => absurd h1 (by omega)⟩
      · have hne : n ≠ m + 1 := fun e => h (e ▸ hm)
        obtain ⟨k, k1, k2, k3, k4⟩ := ih (by omega)
        refine ⟨k, k1, by omega, k3, fun j h1 h2 => ?_⟩
        by_cases hj : j = m + 1
        · rw [hj]; exact h
        · exact k4 j h1 (by omega)
  obtain ⟨k, k1, k2, k3, k4⟩ := hP
  exact ⟨k, k1, findViewHeader_spec hf k3 m last k2 k4⟩

/-- The header of a group whose header is in the last block is found and read. -/
theorem dumpIndex_views {D : Type} [LinearOrder D] {E : Env} (e : CollateEnv D) {kmax : Nat} {f : File} {pos : Nat} {h : IndexHeader}
    {ids : List KV} {views : List View} (w : f.WF) (hf : f.faults = []) (hg : GroupAt E kmax f pos h ids views)
    (hpos : pos % blockSize = 0) (hlast : f.disk.length ≤ pos + blockSize) :
    dumpIndexMain E e f = dumpViews E e h.views [] 0 f.atEnd := by
  obtain ⟨h1, b, q, hst, hq, -, hd⟩ := hg.header
  have hle := hst.le
  have hcl : (headerChunk E f.cfg.crcMode b).length = 8 + b.length := by
    unfold headerChunk
    simp [enc32]
    omega
  rw [hcl] at hle
  have hb : blockSize = 4096 := rfl
  have hn : pos / blockSize * blockSize = pos := Nat.div_mul_cancel (Nat.dvd_of_mod_eq_zero hpos)
  have hfind : findViewHeader .noHeader ((f.disk.length - 2) / blockSize) f.atEnd = .ok pos f.atEnd := by
    have := findViewHeader_spec (f := f.atEnd) hf (n := pos / blockSize) (by rw [hn]; exact h1) ((f.disk.length - 2) / blockSize)
      .noHeader (Nat.div_le_div_right (by omega)) (fun k hk hk' => by
        have : (f.disk.length - 2) / blockSize * blockSize ≤ f.disk.length - 2 := Nat.div_mul_le_self _ _
        have h2 : k * blockSize ≤ (f.disk.length - 2) / blockSize * blockSize := Nat.mul_le_mul_right _ hk'
        have h3 : (pos / blockSize + 1) * blockSize ≤ k * blockSize := Nat.mul_le_mul_right _ hk
        rw [Nat.succ_mul, hn] at h3
        omega)
    rw [hn] at this
    exact this
  have hread := preadHeader_spec E pos q maxDumpHeaderSize b f.atEnd w.crc (by unfold maxDumpHeaderSize; omega) (by omega) hst
  unfold Sp at hread
  unfold dumpIndexMain
  rw [hfind]
  dsimp only
  cases hr : preadHeader E pos maxDumpHeaderSize f.atEnd with
  | error er g =>
    rw [hr] at hread
    exact absurd hf hread.2
  | ok r g =>
    rw [hr] at hread
    obtain ⟨rfl, hrf⟩ := hread
    obtain rfl := hrf.same hf
    dsimp only
    rw [hd]

end Couchstore
