import Verif.Model.CouchCreate

/-! Lemmas for the program that fills files with generated documents. -/

namespace Couchstore.Create

open Couchstore

/-- A key of a vbucket that may be disabled. -/
def guarded (p : CreateParams) (f : CreateFile) (l : VbLocal) (key : Bytes) : VbLocal :=
  if l.kind = .unmanaged then l else createVbKey p f l key

/-- The documents of a vbucket among the keys `k`, …, `k + n - 1`. -/
def keysOf (p : CreateParams) (v k n : Nat) : List Bytes := ((List.range' k n).filter fun j => createVbOf p j = v).map (createKey p)

theorem guarded_unmanaged (p : CreateParams) (f : CreateFile) (l : VbLocal) (h : l.kind = .unmanaged) (ks : List Bytes) :
    ks.foldl (guarded p f) l = l := by
  induction ks with
  | nil => rfl
  | cons k ks ih => rw [List.foldl_cons, guarded, if_pos h]; exact ih

/-- The share of a flusher is right. -/
def Counts (mine : List Nat) (f : Flusher) : Prop := f.managed = (mine.filter fun v => (f.locals v).kind ≠ .unmanaged).length

theorem filter_update (mine : List Nat) (hn : mine.Nodup) (v : Nat) (hv : v ∈ mine) (q r : Nat → Bool) (hq : q v = true) (hr : r v = false)
    (he : ∀ w, w ≠ v → r w = q w) : (mine.filter q).length = (mine.filter r).length + 1 := by
  induction mine with
  | nil => exact nomatch hv
  | cons w ws ih =>
    rw [List.nodup_cons] at hn
    by_cases hw : w = v
    · subst hw
      have : ws.filter r = ws.filter q := List.filter_congr fun x hx => he x fun e => hn.1 (e ▸ hx)
      rw [List.filter_cons_of_pos hq, List.filter_cons_of_neg (by rw [hr]; nofun), this]
      rfl
    · have hv' : v ∈ ws := (List.mem_cons.mp hv).resolve_left fun e => hw e.symm
      have := ih hn.2 hv'
      rw [List.filter_cons, List.filter_cons, he w hw]
      split
      · rw [List.length_cons, List.length_cons, this]
      · exact this

theorem counts_set (mine : List Nat) (hn : mine.Nodup) (f : Flusher) (h : Counts mine f) (v : Nat) (hv : v ∈ mine)
    (hk : (f.locals v).kind ≠ .unmanaged) (l : VbLocal) (st : Bool) :
    Counts mine { locals := fun w => if w = v then l else f.locals w, managed := if l.kind = .unmanaged then f.managed - 1 else f.managed,
                  started := st } := by
  unfold Counts at h ⊢
  dsimp only
  split
  · rename_i hu
    have := filter_update mine hn v hv (fun v => (f.locals v).kind ≠ .unmanaged)
      (fun w => (if w = v then l else f.locals w).kind ≠ .unmanaged) (by simpa using hk) (by simp [hu]) (by intro w hw; simp [hw])
    omega
  · rename_i hu
    have : (mine.filter fun w => (if w = v then l else f.locals w).kind ≠ .unmanaged) = mine.filter fun w => (f.locals w).kind ≠ .unmanaged := by
      refine List.filter_congr fun w _ => ?_
      by_cases hw : w = v
      · subst hw
        rw [if_pos rfl]
        simp [hu, hk]
      · rw [if_neg hw]
    rw [this]
    exact h

theorem key_counts (p : CreateParams) (files : Nat → CreateFile) (mine : List Nat) (hn : mine.Nodup) (f : Flusher) (h : Counts mine f) (k : Nat) :
    Counts mine (flusherKey p files mine f k) := by
  unfold flusherKey
  dsimp only
  generalize createVbOf p k = v
  generalize createVbKey p (files v) (f.locals v) (createKey p k) = l
  split
  · rename_i hv
    exact counts_set mine hn f h v hv.1 hv.2 l true
  · exact h

theorem key_local (p : CreateParams) (files : Nat → CreateFile) (mine : List Nat) (f : Flusher) (k v : Nat) :
    (flusherKey p files mine f k).locals v =
      if createVbOf p k = v ∧ v ∈ mine then guarded p (files v) (f.locals v) (createKey p k) else f.locals v := by
  unfold flusherKey guarded
  dsimp only
  generalize createVbOf p k = w
  by_cases hv : w = v
  · subst hv
    by_cases hm : w ∈ mine
    · by_cases hk : (f.locals w).kind = .unmanaged
      · simp [hk]
      · simp [hk, hm]
    · simp [hm]
  · have : v ≠ w := fun e => hv e.symm
    simp only [hv, false_and, if_false]
    split
    · simp [this]
    · rfl

/-- The loop does to each vbucket what its keys say, also if it ends early. -/
theorem loop_local (p : CreateParams) (files : Nat → CreateFile) (mine : List Nat) (hn : mine.Nodup) (others : Nat → Nat) (v : Nat) (n : Nat) :
    ∀ (k : Nat) (f : Flusher), Counts mine f → (flusherLoop p files mine others n k f).locals v =
      if v ∈ mine then (keysOf p v k n).foldl (guarded p (files v)) (f.locals v) else f.locals v := by
  induction n with
  | zero => intro k f _; unfold flusherLoop; simp [keysOf]
  | succ n ih =>
    intro k f h
    have hc := key_counts p files mine hn f h k
    have hl := key_local p files mine f k v
    have hkeys : keysOf p v k (n + 1) = (if createVbOf p k = v then [createKey p k] else []) ++ keysOf p v (k + 1) n := by
      unfold keysOf
      rw [List.range'_succ, List.filter_cons]
      by_cases hv : createVbOf p k = v
      · simp [hv]
      · simp [hv]
    have hstep : (if v ∈ mine then (keysOf p v k (n + 1)).foldl (guarded p (files v)) (f.locals v) else f.locals v) =
        if v ∈ mine then (keysOf p v (k + 1) n).foldl (guarded p (files v)) ((flusherKey p files mine f k).locals v)
        else (flusherKey p files mine f k).locals v := by
      rw [hkeys, hl]
      by_cases hv : createVbOf p k = v
      · by_cases hm : v ∈ mine
        · simp [hv, hm]
        · simp [hm]
      · simp [hv]
    rw [hstep]
    unfold flusherLoop
    dsimp only
    split
    · rename_i hz
      unfold Counts at hc
      have h0 : (mine.filter fun v => ((flusherKey p files mine f k).locals v).kind ≠ .unmanaged).length = 0 := by omega
      split
      · rename_i hm
        have : ((flusherKey p files mine f k).locals v).kind = .unmanaged := by
          have h1 := List.length_eq_zero_iff.mp h0
          rw [List.filter_eq_nil_iff] at h1
          simpa using h1 v hm
        rw [guarded_unmanaged _ _ _ this]
      · rfl
    · exact ih (k + 1) _ hc

/-- The calls for some batches of documents. -/
def saves (bs : List (List Bytes)) : List CreateCall := bs.flatMap fun b => [.save b, .commit]

theorem saves_append (bs : List (List Bytes)) (b : List Bytes) : saves (bs ++ [b]) = saves bs ++ [.save b, .commit] := by
  simp [saves]

/-- A vbucket that is being filled: `done` are its documents so far. -/
structure Running (p : CreateParams) (got : Option Bool) (kind : VbKind) (opened : List CreateCall) (done : List Bytes) (bs : List (List Bytes))
    (h : VbHandle) (l : VbLocal) : Prop where
  handle : l.handle = some h
  kind : l.kind = kind
  got : h.got = got
  count : h.docCount = done.length
  seq : h.seq = done.length
  calls : l.calls = opened ++ saves bs
  docs : done = bs.flatten ++ h.pending
  short : h.pending.length < p.perFlush
  full : ∀ b ∈ bs, b.length = p.perFlush
  saved : l.saved = bs.flatten.length
  ub : l.ub = false

theorem running_add {p : CreateParams} (hp : 0 < p.perFlush) {got : Option Bool} {kind : VbKind} {opened : List CreateCall} {done : List Bytes}
    {bs : List (List Bytes)} {h : VbHandle} {l : VbLocal} (r : Running p got kind opened done bs h l) (key : Bytes) :
    ∃ bs', Running p got kind opened (done ++ [key]) bs' (createAdd p l h key).2
      { (createAdd p l h key).1 with handle := some (createAdd p l h key).2 } := by
  have hub : (if h.pending.length ≥ p.perFlush then { l with ub := true } else l) = l := if_neg (by have := r.short; omega)
  unfold createAdd
  rw [hub]
  dsimp only
  split
  · rename_i hf
    refine ⟨bs ++ [h.pending ++ [key]], ?_⟩
    unfold createSave
    dsimp only
    rw [if_neg (by simp)]
    refine ⟨rfl, r.kind, r.got, ?_, ?_, ?_, ?_, hp, ?_, ?_, r.ub⟩
    · dsimp only; rw [r.count]; simp
    · dsimp only; rw [r.seq]; simp
    · dsimp only; rw [r.calls, saves_append]; simp
    · dsimp only; rw [r.docs]; simp
    · intro b hb
      rcases List.mem_append.mp hb with hb | hb
      · exact r.full b hb
      · rw [List.mem_singleton.mp hb]; exact hf
    · dsimp only; rw [r.saved]; simp
  · rename_i hf
    refine ⟨bs, rfl, r.kind, r.got, ?_, ?_, r.calls, ?_, ?_, r.full, r.saved, r.ub⟩
    · dsimp only; rw [r.count]; simp
    · dsimp only; rw [r.seq]; simp
    · dsimp only; rw [r.docs]; simp
    · dsimp only at hf ⊢
      have := r.short
      rw [List.length_append] at hf ⊢
      simp only [List.length_singleton] at hf ⊢
      omega

/-- What is left behind for a file: all its documents in batches, each of which is committed, and its state. -/
structure Filled (p : CreateParams) (got : Option Bool) (kind : VbKind) (opened : List CreateCall) (docs : List Bytes) (l : VbLocal) : Prop where
  calls : ∃ bs : List (List Bytes), bs.flatten = docs ∧ (∀ b ∈ bs, b ≠ [] ∧ b.length ≤ p.perFlush) ∧
    l.calls = opened ++ saves bs ++ [.saveState (got.getD (kind ≠ .active)) docs.length, .commit, .close]
  saved : l.saved = docs.length
  handle : l.handle = none
  ub : l.ub = false

theorem running_close {p : CreateParams} (hp : 0 < p.perFlush) {got : Option Bool} {kind : VbKind} {opened : List CreateCall} {done : List Bytes}
    {bs : List (List Bytes)} {h : VbHandle} {l : VbLocal} (r : Running p got kind opened done bs h l) :
    Filled p got kind opened done (createClose l h) := by
  have hfull : ∀ b ∈ bs, b ≠ [] ∧ b.length ≤ p.perFlush := fun b hb =>
    ⟨fun e => by have := r.full b hb; rw [e] at this; simp at this; omega, Nat.le_of_eq (r.full b hb)⟩
  unfold createClose createSave
  by_cases hpend : h.pending = []
  · rw [if_pos hpend]
    have hd : done = bs.flatten := by rw [r.docs, hpend, List.append_nil]
    refine ⟨⟨bs, hd.symm, hfull, ?_⟩, ?_, rfl, r.ub⟩
    · dsimp only
      rw [r.calls, r.seq, r.got, r.kind]
      cases got <;> rfl
    · dsimp only
      rw [r.saved, hd]
  · rw [if_neg hpend]
    refine ⟨⟨bs ++ [h.pending], ?_, ?_, ?_⟩, ?_, rfl, r.ub⟩
    · rw [r.docs]; simp
    · intro b hb
      rcases List.mem_append.mp hb with hb | hb
      · exact hfull b hb
      · rw [List.mem_singleton.mp hb]; exact ⟨hpend, Nat.le_of_lt r.short⟩
    · dsimp only
      rw [r.calls, r.seq, r.got, r.kind, saves_append]
      cases got <;> simp
    · dsimp only
      rw [r.saved, r.docs]
      simp

/-- The file can be used: what the opening finds, and the calls that it makes. -/
def Usable (p : CreateParams) (f : CreateFile) (got : Option Bool) (opened : List CreateCall) : Prop :=
  (p.reuse = false ∧ f.opens = true ∧ f.state = none ∧ got = none ∧ opened = [.openFile false, .readState]) ∨
    (p.reuse = true ∧ f.opens = true ∧ f.reopens = true ∧ (∃ r, f.state = some r ∧ got = some r) ∧
      opened = [.openFile true, .readState, .close, .openFile false])

theorem open_running {p : CreateParams} (hp : 0 < p.perFlush) {f : CreateFile} {got : Option Bool} {opened : List CreateCall}
    (hu : Usable p f got opened) (kind : VbKind) :
    Running p got kind opened [] [] { got := got } (createOpen p f { kind := kind }) := by
  rcases hu with ⟨h1, h2, h3, h4, h5⟩ | ⟨h1, h2, h3, ⟨r, h4, h4'⟩, h5⟩
  · subst h4 h5
    unfold createOpen
    simp only [h1, h2, h3]
    exact ⟨rfl, rfl, rfl, rfl, rfl, rfl, rfl, hp, nofun, rfl, rfl⟩
  · subst h4' h5
    unfold createOpen
    simp only [h1, h2, h3, h4]
    exact ⟨rfl, rfl, rfl, rfl, rfl, rfl, rfl, hp, nofun, rfl, rfl⟩

theorem vbKey_running {p : CreateParams} (hp : 0 < p.perFlush) (f : CreateFile) {got : Option Bool} {kind : VbKind} {opened : List CreateCall}
    {done : List Bytes} {bs : List (List Bytes)} {h : VbHandle} {l : VbLocal} (r : Running p got kind opened done bs h l) (key : Bytes) :
    if p.keysPerVb = true ∧ done.length + 1 = p.keyCount then
      Filled p got kind opened (done ++ [key]) (createVbKey p f l key) ∧ (createVbKey p f l key).kind = .unmanaged
    else ∃ bs' h', Running p got kind opened (done ++ [key]) bs' h' (createVbKey p f l key) := by
  obtain ⟨bs', r'⟩ := running_add hp r key
  have hc : (createAdd p l h key).2.docCount = done.length + 1 := by rw [r'.count]; simp
  have e : createVbKey p f l key = if p.keysPerVb = true ∧ (createAdd p l h key).2.docCount = p.keyCount then
      { createClose { (createAdd p l h key).1 with handle := some (createAdd p l h key).2 } (createAdd p l h key).2 with kind := .unmanaged }
      else { (createAdd p l h key).1 with handle := some (createAdd p l h key).2 } := by
    unfold createVbKey
    rw [if_neg (by rw [r.handle]; nofun)]
    dsimp only
    rw [r.handle]
  rw [e, hc]
  split
  · have := running_close hp r'
    exact ⟨⟨this.calls, this.saved, this.handle, this.ub⟩, rfl⟩
  · exact ⟨bs', _, r'⟩

theorem vbKey_fresh {p : CreateParams} {f : CreateFile} {kind : VbKind} (key : Bytes) (h : (createOpen p f { kind := kind }).handle ≠ none) :
    createVbKey p f { kind := kind } key = createVbKey p f (createOpen p f { kind := kind }) key := by
  unfold createVbKey
  rw [if_pos rfl, if_neg h]

/-- The keys of a vbucket, one after the other. -/
theorem fold_usable {p : CreateParams} (hp : 0 < p.perFlush) (hk : 0 < p.keyCount) {f : CreateFile} {got : Option Bool}
    {opened : List CreateCall} (hu : Usable p f got opened) {kind : VbKind} (hm : kind ≠ .unmanaged) (ks : List Bytes) :
    ks ≠ [] →
    ((p.keysPerVb = false ∨ ks.length < p.keyCount) → ∃ bs h, Running p got kind opened ks bs h (ks.foldl (guarded p f) { kind := kind })) ∧
    (p.keysPerVb = true → p.keyCount ≤ ks.length → (ks.foldl (guarded p f) { kind := kind }).kind = .unmanaged ∧
      Filled p got kind opened (ks.take p.keyCount) (ks.foldl (guarded p f) { kind := kind })) := by
  obtain ⟨n, hn⟩ : ∃ n, ks.length = n := ⟨_, rfl⟩
  induction n generalizing ks with
  | zero => intro h; exact absurd (List.length_eq_zero_iff.mp hn) h
  | succ n ih =>
    intro _
    obtain ⟨ks, key, rfl⟩ : ∃ ks' key, ks = ks' ++ [key] :=
      ⟨ks.dropLast, ks.getLast (by intro e; rw [e] at hn; exact nomatch hn), (List.dropLast_concat_getLast _).symm⟩
    rw [List.length_append, List.length_singleton, Nat.add_right_cancel_iff] at hn
    rw [List.foldl_append, List.foldl_cons, List.foldl_nil]
    -- a vbucket that is being filled gets one more key
    have go : ∀ (l : VbLocal) (bs : List (List Bytes)) (h : VbHandle), Running p got kind opened ks bs h l →
        (p.keysPerVb = false ∨ ks.length < p.keyCount) →
        ((p.keysPerVb = false ∨ (ks ++ [key]).length < p.keyCount) → ∃ bs h, Running p got kind opened (ks ++ [key]) bs h (createVbKey p f l key)) ∧
        (p.keysPerVb = true → p.keyCount ≤ (ks ++ [key]).length → (createVbKey p f l key).kind = .unmanaged ∧
          Filled p got kind opened ((ks ++ [key]).take p.keyCount) (createVbKey p f l key)) := by
      intro l bs h r hlt
      have := vbKey_running hp f r key
      rw [List.length_append, List.length_singleton]
      split at this
      · rename_i hd
        refine ⟨fun h => ?_, fun _ _ => ⟨this.2, ?_⟩⟩
        · rcases h with h | h
          · rw [h] at hd; exact nomatch hd.1
          · omega
        · rw [List.take_of_length_le (by simp; omega)]
          exact this.1
      · rename_i hd
        refine ⟨fun _ => this, fun h1 h2 => ?_⟩
        rcases hlt with hlt | hlt
        · rw [hlt] at h1; exact nomatch h1
        · exact absurd ⟨h1, by omega⟩ hd
    by_cases hnil : ks = []
    · subst hnil
      rw [List.foldl_nil, guarded, if_neg hm]
      have r := open_running hp hu kind
      rw [vbKey_fresh key (by rw [r.handle]; nofun)]
      exact go _ _ _ r (.inr hk)
    · have := ih ks hn hnil
      by_cases hfin : p.keysPerVb = true ∧ p.keyCount ≤ ks.length
      · obtain ⟨h1, h2⟩ := this.2 hfin.1 hfin.2
        rw [guarded, if_pos h1]
        refine ⟨fun h => ?_, fun _ _ => ⟨h1, ?_⟩⟩
        · rcases h with h | h
          · rw [h] at hfin; exact nomatch hfin.1
          · rw [List.length_append] at h; omega
        · rw [List.take_append_of_le_length hfin.2]
          exact h2
      · have hlt : p.keysPerVb = false ∨ ks.length < p.keyCount := by
          cases hb : p.keysPerVb
          · exact .inl rfl
          · exact .inr (Nat.lt_of_not_le fun x => hfin ⟨hb, x⟩)
        obtain ⟨bs, h, r⟩ := this.1 hlt
        rw [guarded, if_neg (by rw [r.kind]; exact hm)]
        exact go _ _ _ r hlt

/-- A file that cannot be used: nothing is written to it. -/
theorem fold_unusable {p : CreateParams} {f : CreateFile}
    (hu : f.opens = false ∨ (p.reuse = false ∧ f.state.isSome = true) ∨ (p.reuse = true ∧ (f.state = none ∨ f.reopens = false)))
    {kind : VbKind} (hm : kind ≠ .unmanaged) (ks : List Bytes) :
    (ks.foldl (guarded p f) { kind := kind }).handle = none ∧ (ks.foldl (guarded p f) { kind := kind }).saved = 0 ∧
      ∀ c ∈ (ks.foldl (guarded p f) { kind := kind }).calls, c = .openFile true ∨ c = .openFile false ∨ c = .readState ∨ c = .close := by
  cases ks with
  | nil => exact ⟨rfl, rfl, nofun⟩
  | cons key ks =>
    have h0 : (createOpen p f { kind := kind }).handle = none ∧ (createOpen p f { kind := kind }).kind = .unmanaged ∧
        (createOpen p f { kind := kind }).saved = 0 ∧ ∀ c ∈ (createOpen p f { kind := kind }).calls,
          c = .openFile true ∨ c = .openFile false ∨ c = .readState ∨ c = .close := by
      unfold createOpen
      cases hr : p.reuse <;> cases ho : f.opens <;> cases hs : f.state <;> cases hre : f.reopens <;> simp_all
    have e : createVbKey p f { kind := kind } key = createOpen p f { kind := kind } := by
      unfold createVbKey
      rw [if_pos rfl]
      dsimp only
      rw [h0.1]
    rw [List.foldl_cons, guarded, if_neg hm, e, guarded_unmanaged _ _ _ h0.2.1]
    exact ⟨h0.1, h0.2.2⟩

/-- The digits tell the number. -/
theorem decDigits_inj (n : Nat) : ∀ k k', k < 10 ^ n → k' < 10 ^ n → decDigits n k = decDigits n k' → k = k' := by
  induction n with
  | zero => intro k k' h h' _; simp at h h'; omega
  | succ n ih =>
    intro k k' h h' he
    rw [decDigits, decDigits] at he
    have hl : ∀ n k, (decDigits n k).length = n := by
      intro n
      induction n with
      | zero => intro k; rfl
      | succ n ih => intro k; rw [decDigits, List.length_append, ih]; rfl
    obtain ⟨h1, h2⟩ := List.append_inj he (by rw [hl, hl])
    have h3 : UInt8.ofNat (48 + k % 10) = UInt8.ofNat (48 + k' % 10) := by simpa using h2
    have h4 : k % 10 = k' % 10 := by
      have := congrArg UInt8.toNat h3
      simp only [UInt8.toNat_ofNat'] at this
      omega
    have h5 := ih (k / 10) (k' / 10) (by rw [Nat.pow_succ] at h; omega) (by rw [Nat.pow_succ] at h'; omega) h1
    omega

end Couchstore.Create
