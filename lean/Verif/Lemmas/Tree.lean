import Verif.Spec.Tree
import Verif.Lemmas.Node

/-! Helper lemmas about stored trees: framing, parsing, flushing. -/

namespace Couchstore

variable {σ : Type}

/-- What a file must keep for the stored trees to stay intact. -/
structure Keep (f g : File) : Prop where
  disk : ∀ i, i < f.pos → i % blockSize ≠ 0 → g.disk[i]? = f.disk[i]?
  cipher : g.cfg.cipher = f.cfg.cipher
  crc : g.cfg.crcMode = f.cfg.crcMode
  pos : f.pos ≤ g.pos

theorem Keep.refl (f : File) : Keep f f := ⟨fun _ _ _ => rfl, rfl, rfl, Nat.le_refl _⟩

theorem Keep.trans {f g h : File} (a : Keep f g) (b : Keep g h) : Keep f h :=
  ⟨fun i hi hm => (b.disk i (Nat.lt_of_lt_of_le hi a.pos) hm).trans (a.disk i hi hm),
    b.cipher.trans a.cipher, b.crc.trans a.crc, Nat.le_trans a.pos b.pos⟩

theorem Ext.keep {f g : File} (e : Ext f g) (w : f.WF) : Keep f g :=
  ⟨fun i hi _ => e.frame.agree i hi (by have := w.pos_le; omega), by rw [e.frame.cfg],
    by rw [e.frame.cfg], e.pos⟩

theorem RFrame.keep {f g : File} (a : RFrame f g) : Keep f g :=
  ⟨fun i _ _ => by rw [a.disk], by rw [a.cfg], by rw [a.cfg], by rw [a.pos]; exact Nat.le_refl _⟩

theorem chunkBytes_keep {E : Env} {f g : File} (k : Keep f g) (pos : Nat) (b : Bytes) :
    chunkBytes E g.cfg pos b = chunkBytes E f.cfg pos b := by
  unfold chunkBytes; rw [k.cipher, k.crc]

theorem ChunkAt.keep {E : Env} {f g : File} {pos b} (h : ChunkAt E f pos b) (k : Keep f g) :
    ChunkAt E g pos b := by
  obtain ⟨h1, h2, q, hq, hs⟩ := h
  refine ⟨?_, h2, q, Nat.le_trans hq k.pos, ?_⟩
  · unfold ChunkFits at *; rw [k.cipher]; exact h1
  · rw [chunkBytes_keep k]
    exact hs.congr' (fun i _ hi hm => k.disk i (by omega) hm)

theorem NodeAt.mono {E : Env} {X : Idx} {f g : File} {P P' : Item → List KV → Prop} {kind p kvs}
    (h : NodeAt E X f P kind p kvs) (k : Keep f g) (hP : ∀ it c, P it c → P' it c) :
    NodeAt E X g P' kind p kvs := by
  obtain ⟨cs, h1, h2, h3, h4, h5, h6, h7, h8⟩ := h
  exact ⟨cs, h1, fun c hc => hP _ _ (h2 c hc), h3, ChunkAt.keep h4 k, h5, h6, h7, by
    rw [chunkBytes_keep k]; exact h8⟩

theorem ItemAt.keep {E : Env} {X : Idx} {f g : File} (k : Keep f g) :
    ∀ {l it kvs}, ItemAt E X f l it kvs → ItemAt E X g l it kvs
  | 0, _, _, h => h
  | l + 1, it, kvs, h => by
    obtain ⟨p, h1, h2, h3⟩ := h
    exact ⟨p, h1, h2, h3.mono k (fun it c hc => ItemAt.keep k hc)⟩

theorem TreeAt.keep {E : Env} {X : Idx} {f g : File} (k : Keep f g) {l p kvs}
    (h : TreeAt E X f l p kvs) : TreeAt E X g l p kvs :=
  NodeAt.mono h k (fun _ _ hc => hc.keep k)

theorem RootAt.keep {E : Env} {X : Idx} {f g : File} (k : Keep f g) {r kvs}
    (h : RootAt E X f r kvs) : RootAt E X g r kvs := by
  cases r with
  | none => exact h
  | some p => obtain ⟨l, h⟩ := h; exact ⟨l, h.keep k⟩

/-! ### Basic facts about items -/

theorem lastKey_append {a b : List KV} (hb : b ≠ []) : lastKey (a ++ b) = lastKey b := by
  unfold lastKey
  rw [List.getLast?_append]
  cases h : b.getLast? with
  | none => simp at h; exact absurd h hb
  | some x => simp

theorem flatMap_ne_nil {α β : Type} {cs : List α} {g : α → List β} (hc : cs ≠ [])
    (h : ∀ c ∈ cs, g c ≠ []) : cs.flatMap g ≠ [] := by
  cases cs with
  | nil => exact absurd rfl hc
  | cons c cs =>
    intro h0
    have := h c (by simp)
    simp at h0
    exact this h0.1

theorem ItemAt.ne_nil {E : Env} {X : Idx} {f : File} :
    ∀ {l it kvs}, ItemAt E X f l it kvs → kvs ≠ []
  | 0, _, _, h => by rw [h.2.1]; simp
  | l + 1, _, _, h => by
    obtain ⟨p, _, _, cs, h1, h2, rfl, _⟩ := h
    exact flatMap_ne_nil h1 (fun c hc => (h2 c hc).ne_nil)

theorem ItemAt.valid {E : Env} {X : Idx} {f : File} :
    ∀ {l it kvs}, ItemAt E X f l it kvs → ∀ kv ∈ kvs, X.V kv
  | 0, _, _, h => by
    obtain ⟨_, rfl, h, _⟩ := h
    intro kv hkv; simp at hkv; subst hkv; exact h
  | l + 1, _, _, h => by
    obtain ⟨p, _, _, cs, h1, h2, rfl, _⟩ := h
    intro kv hkv
    obtain ⟨c, hc, hkv⟩ := List.mem_flatMap.mp hkv
    exact (h2 c hc).valid kv hkv

theorem TreeAt.valid {E : Env} {X : Idx} {f : File} {l p kvs} (h : TreeAt E X f l p kvs) :
    ∀ kv ∈ kvs, X.V kv := by
  obtain ⟨cs, h1, h2, rfl, _⟩ := h
  intro kv hkv
  obtain ⟨c, hc, hkv⟩ := List.mem_flatMap.mp hkv
  exact (h2 c hc).valid kv hkv

theorem TreeAt.ne_nil {E : Env} {X : Idx} {f : File} {l p kvs} (h : TreeAt E X f l p kvs) :
    kvs ≠ [] := by
  obtain ⟨cs, h1, h2, rfl, _⟩ := h
  exact flatMap_ne_nil h1 (fun c hc => (h2 c hc).ne_nil)

theorem RootAt.valid {E : Env} {X : Idx} {f : File} {r kvs} (h : RootAt E X f r kvs) :
    ∀ kv ∈ kvs, X.V kv := by
  cases r with
  | none => rw [show kvs = [] from h]; simp
  | some p => obtain ⟨l, h⟩ := h; exact h.valid

theorem ItemAt.lastKey {E : Env} {X : Idx} {f : File} {l it kvs} (h : ItemAt E X f l it kvs) :
    lastKey kvs = some it.key := by
  cases l with
  | zero => obtain ⟨_, rfl, _⟩ := h; rfl
  | succ l => obtain ⟨p, rfl, h, _⟩ := h; exact h

theorem lastKey_mem {kvs : List KV} {k : Bytes} (h : lastKey kvs = some k) :
    ∃ v, (k, v) ∈ kvs := by
  unfold lastKey at h
  cases hl : kvs.getLast? with
  | none => rw [hl] at h; simp at h
  | some x =>
    rw [hl] at h; simp at h
    exact ⟨x.2, by rw [← h]; exact List.mem_of_getLast? hl⟩

theorem ItemAt.fits {E : Env} {X : Idx} {f : File} {l it kvs} (h : ItemAt E X f l it kvs)
    (hV : ∀ kv, X.V kv → kv.1.length < 4096) :
    it.key.length < 4096 ∧ it.data.length < 2 ^ 28 := by
  cases l with
  | zero => exact h.2.2.2
  | succ l =>
    obtain ⟨v, hv⟩ := lastKey_mem h.lastKey
    have h1 := hV _ (h.valid _ hv)
    obtain ⟨p, rfl, _, cs, _, _, _, _, _, h6, _⟩ := h
    refine ⟨h1, ?_⟩
    show (encodePointer p).length < _
    rw [encodePointer_length]; omega

theorem ItemAt.pointer_lt {E : Env} {X : Idx} {f : File} {l it kvs} (h : ItemAt E X f l it kvs) :
    ∀ q, it.pointer = some q → q.pointer < f.pos := by
  intro q hq
  cases l with
  | zero => rw [h.1] at hq; simp at hq
  | succ l =>
    obtain ⟨p, rfl, _, cs, _, _, _, h4, _⟩ := h
    simp [ptrItem] at hq
    subst hq
    exact h4.lt

/-- A pointer read back from the file loses the high bits of the subtree size only. -/
def truncPtr (p : NodePointer) : NodePointer := { p with subtreesize := p.subtreesize % 2 ^ 48 }

theorem encodePointer_trunc (p : NodePointer) : encodePointer (truncPtr p) = encodePointer p := by
  unfold encodePointer truncPtr enc48
  simp only
  have h : p.subtreesize % 2 ^ 48 = p.subtreesize % 256 ^ 6 := by
    rw [show (256 : Nat) ^ 6 = 2 ^ 48 by decide]
  rw [h, beEnc_mod 6 _ 6 (Nat.le_refl _)]

theorem readPointer_encode (p : NodePointer) (hp : p.pointer < 2 ^ 48)
    (hr : p.reduceValue.length < 2 ^ 16) :
    readPointer p.key (encodePointer p) = some (truncPtr p) := by
  rw [← encodePointer_trunc]
  have := readPointer_encodePointer (truncPtr p) hp (Nat.mod_lt _ (by decide)) hr
  exact this

theorem NodeAt.trunc {E : Env} {X : Idx} {f : File} {P kind p kvs}
    (h : NodeAt E X f P kind p kvs) : NodeAt E X f P kind (truncPtr p) kvs := by
  obtain ⟨cs, h1, h2, h3, h4, h5, h6, h7, h8⟩ := h
  exact ⟨cs, h1, h2, h3, h4, h5, h6, h7, (Nat.mod_mod _ _).trans h8⟩

/-! ### Parsing -/

theorem parseRecs_nil (n : Nat) : parseRecs n [] = [] := by cases n <;> rfl

theorem parseRecs_encode (is : List Item) (n : Nat) (hn : (encodeItems is).length ≤ n)
    (h : ∀ i ∈ is, i.key.length < 4096 ∧ i.data.length < 2 ^ 28) :
    parseRecs n (encodeItems is) = is.map fun i => some (i.key, i.data) := by
  induction is generalizing n with
  | nil => exact parseRecs_nil n
  | cons i is ih =>
    have he : encodeItems (i :: is) = writeKv i.key i.data ++ encodeItems is := rfl
    rw [he] at hn ⊢
    rw [List.length_append, writeKv_length] at hn
    have hi := h i (by simp)
    have hr := readKv_writeKv i.key i.data (encodeItems is) hi.1 hi.2
    cases n with
    | zero => omega
    | succ n =>
      have hne : writeKv i.key i.data ++ encodeItems is ≠ [] := by
        intro h0
        have := congrArg List.length h0
        rw [List.length_append, writeKv_length] at this
        simp at this
      rw [List.map_cons, ← ih n (by omega) (fun j hj => h j (by simp [hj]))]
      conv => lhs; unfold parseRecs
      split
      · rename_i h0 h1; exact absurd h1 hne
      · rename_i h0 h1; simp at h0
      · rename_i h1 h2
        injection h1 with h1
        subst h1
        rw [hr]

theorem readNode_spec (E : Env) (L : E.Laws) (pos : Nat) (t : UInt8) (is : List Item) (f : File)
    (hcrc : f.cfg.crcMode ≠ .unknown)
    (h : ZChunkAt E f pos (t :: encodeItems is))
    (hi : ∀ i ∈ is, i.key.length < 4096 ∧ i.data.length < 2 ^ 28) :
    Sp (readNode E pos) f
      (fun r g => r = (t, is.map fun i => some (i.key, i.data)) ∧ RFrame f g) (FailR f) := by
  unfold readNode
  apply Sp.bind' (preadCompressed_spec E L pos _ f hcrc h)
  · rintro b g ⟨rfl, hrf⟩
    refine ⟨?_, hrf⟩
    rw [parseRecs_encode is _ (Nat.le_refl _) hi]
  · exact fun _ _ h => h

/-! ### Flushing -/

def itemsSize (is : List Item) : Nat := (is.map Item.kvSize).sum

theorem encodeItems_length (is : List Item) : (encodeItems is).length = itemsSize is := by
  induction is with
  | nil => rfl
  | cons i is ih =>
    show (writeKv i.key i.data ++ encodeItems is).length = i.kvSize + itemsSize is
    rw [List.length_append, writeKv_length, ih]
    unfold Item.kvSize; omega

theorem itemsSize_cons (i : Item) (is : List Item) : itemsSize (i :: is) = i.kvSize + itemsSize is := rfl

theorem itemsSize_append (a b : List Item) : itemsSize (a ++ b) = itemsSize a + itemsSize b := by
  simp [itemsSize]

theorem flushTake_spec (kind : NodeKind) (quota bufSize : Nat) (is : List Item) (used n : Nat)
    (h : 1 + used + itemsSize is ≤ bufSize) :
    ∃ t r, flushTake kind quota bufSize is used n = .ok (t, r) ∧ is = t ++ r ∧
      (is ≠ [] → (used < quota ∨ (n < 2 ∧ kind = .kp)) → t ≠ []) ∧
      (used + itemsSize is ≤ quota → r = []) ∧
      (kind = .kp → 2 ≤ n + is.length → 2 ≤ n + t.length ) := by
  induction is generalizing used n with
  | nil => exact ⟨[], [], rfl, rfl, by simp, by simp, by simp⟩
  | cons i is ih =>
    rw [itemsSize_cons] at h
    unfold flushTake
    by_cases hc : used < quota ∨ (n < 2 ∧ kind = .kp)
    · obtain ⟨t, r, h1, h2, h3, h4, h5⟩ := ih (used + i.kvSize) (n + 1) (by omega)
      refine ⟨i :: t, r, ?_, by rw [h2]; rfl, by simp, ?_, ?_⟩
      · rw [if_pos hc, if_neg (by omega), h1]
      · intro hq; rw [itemsSize_cons] at hq; exact h4 (by omega)
      · intro hk hl
        have := h5 hk (by simp at hl; omega)
        simp; omega
    · refine ⟨[], i :: is, by rw [if_neg hc], rfl, fun _ hc' => absurd hc' hc, ?_, ?_⟩
      · intro hq
        exfalso
        apply hc
        left
        rw [itemsSize_cons] at hq
        unfold Item.kvSize at hq
        omega
      · intro hk hl
        by_cases hn : n < 2
        · exact absurd (Or.inr ⟨hn, hk⟩) hc
        · simp; omega

/-- The invariant of a node under construction at height `l`, with entries `c`. -/
structure MRInv (E : Env) (X : Idx) (f : File) (l : Nat) (mr : MR) (c : List KV)
    (ps vs : List (Item × List KV)) : Prop where
  kind : mr.kind = kindOf l
  pointers : mr.pointers = ps.map (·.1)
  values : mr.values = vs.map (·.1)
  ps_ok : ∀ x ∈ ps, ItemAt E X f (l + 1) x.1 x.2
  vs_ok : ∀ x ∈ vs, ItemAt E X f l x.1 x.2
  len : mr.nodeLen = itemsSize (vs.map (·.1))
  count : mr.count = vs.length
  content : c = ps.flatMap (·.2) ++ vs.flatMap (·.2)

theorem MRInv.keep {E X f g l mr c ps vs} (h : MRInv E X f l mr c ps vs) (k : Keep f g) :
    MRInv E X g l mr c ps vs :=
  { h with ps_ok := fun x hx => (h.ps_ok x hx).keep k, vs_ok := fun x hx => (h.vs_ok x hx).keep k }

theorem MRInv.new (E : Env) (X : Idx) (f : File) (l : Nat) (m : Bool) :
    MRInv E X f l { MR.new (kindOf l) with modified := m } [] [] [] :=
  ⟨rfl, rfl, rfl, by simp, by simp, rfl, rfl, rfl⟩

/-- The reduction of well-formed records. -/
theorem nodeReduce_spec {rq : Rq σ} {K X} (ok : RqOk rq K X) {E : Env} {f : File} (l : Nat)
    (cs : List (Item × List KV)) (hne : cs ≠ []) (h : ∀ c ∈ cs, ItemAt E X f l c.1 c.2) :
    ∃ r, nodeReduce rq (kindOf l) (cs.map (·.1)) = .ok r ∧ X.R (cs.flatMap (·.2)) r ∧
      r.length < 2 ^ 16 := by
  cases l with
  | zero =>
    obtain ⟨r, h1, h2, h3⟩ := ok.reduce (cs.map (·.1)) (by simpa using hne) (by
      intro i hi
      obtain ⟨c, hc, rfl⟩ := List.mem_map.mp hi
      exact (h c hc).2.2.1)
    refine ⟨r, h1, ?_, h3⟩
    have : cs.flatMap (·.2) = (cs.map (·.1)).map fun i => (i.key, i.data) := by
      clear h1 h2 h3 hne
      induction cs with
      | nil => rfl
      | cons c cs ih =>
        rw [List.flatMap_cons, List.map_cons, List.map_cons, (h c (by simp)).2.1,
          ih (fun d hd => h d (by simp [hd]))]
        rfl
    rw [this]; exact h2
  | succ l =>
    have hp : ∃ qs : List (NodePointer × List KV), cs = qs.map (fun q => (ptrItem q.1, q.2)) ∧
        ∀ q ∈ qs, X.R q.2 q.1.reduceValue := by
      clear hne
      induction cs with
      | nil => exact ⟨[], rfl, by simp⟩
      | cons c cs ih =>
        obtain ⟨qs, h1, h2⟩ := ih (fun d hd => h d (by simp [hd]))
        obtain ⟨p, hp, _, _, _, _, _, _, hR, _⟩ := h c (by simp)
        refine ⟨(p, c.2) :: qs, ?_, ?_⟩
        · rw [List.map_cons, ← h1]
          congr 1
          exact Prod.ext hp rfl
        · intro q hq
          rcases List.mem_cons.mp hq with rfl | hq
          · exact hR
          · exact h2 q hq
    obtain ⟨qs, rfl, hqs⟩ := hp
    obtain ⟨r, h1, h2, h3⟩ := ok.rereduce qs (by intro h0; subst h0; simp at hne) hqs
    refine ⟨r, ?_, ?_, h3⟩
    · rw [List.map_map]; exact h1
    · rw [List.flatMap_map]; exact h2

/-- What a failing tree operation guarantees. -/
def FailT (f : File) (e : Err) (g : File) : Prop := Ext f g ∧ (f.faults ≠ [] ∨ e = .formatLimit)

theorem FailT.trans {f g h : File} {e : Err} (a : Ext f g) (b : FailT g e h) : FailT f e h :=
  ⟨a.trans b.1, b.2.imp (fun h => a.faults_ne h) id⟩

theorem FailExt.failT {f g : File} {e : Err} (h : FailExt f e g) : FailT f e g := ⟨h.1, h.2.2⟩

theorem flushMrPartial_spec (E : Env) {rq : Rq σ} {K X} (ok : RqOk rq K X) (l : Nat) (mr : MR)
    (c : List KV) (ps vs : List (Item × List KV)) (quota : Nat) (f : File) (w : f.WF)
    (h : MRInv E X f l mr c ps vs) (hq : 0 < quota ∨ l ≠ 0) :
    Sp (flushMrPartial E rq mr quota) f
      (fun mr' g => Ext f g ∧ mr'.modified = mr.modified ∧
        ∃ ps' vs', MRInv E X g l mr' c ps' vs' ∧
          (mr.modified = false → ps' = ps ∧ vs' = vs) ∧
          (itemsSize (vs.map (·.1)) ≤ quota → mr.modified = true → vs' = []) ∧
          (l ≠ 0 → 2 ≤ vs.length → 2 * ps'.length + vs'.length ≤ 2 * ps.length + vs.length) ∧
          (mr.modified = true → vs ≠ [] → ps'.length = ps.length + 1) ∧
          (vs = [] → ps' = ps ∧ vs' = []) ∧
          vs'.length ≤ vs.length)
      (FailT f) := by
  unfold flushMrPartial
  have hvals := h.values
  cases hv : vs with
  | nil =>
    rw [hv] at hvals
    simp only [hvals, List.map_nil]
    refine ⟨Ext.refl _, rfl, ps, [], hv ▸ h, fun _ => ⟨rfl, rfl⟩, fun _ _ => rfl, ?_, ?_, ?_, ?_⟩
    all_goals simp
  | cons v0 vs0 =>
    rw [hv] at hvals
    simp only [hvals, List.map_cons]
    by_cases hm : mr.modified = false
    · rw [if_pos hm]
      refine ⟨Ext.refl _, rfl, ps, v0 :: vs0, hv ▸ h, fun _ => ⟨rfl, rfl⟩, ?_, ?_, ?_, ?_, ?_⟩
      all_goals simp [hm]
    · rw [if_neg hm]
      have hm' : mr.modified = true := by simpa using hm
      obtain ⟨t, r, h1, h2, h3, h4, h5⟩ := flushTake_spec mr.kind quota (mr.nodeLen + 1)
        (v0.1 :: vs0.map (·.1)) 0 0 (by
          rw [h.len, hv]; simp only [List.map_cons]; omega)
      rw [h1]
      obtain ⟨tv, rv, hsplit, ht, hr⟩ := List.map_eq_append_iff.mp
        (show (v0 :: vs0).map (·.1) = t ++ r from h2)
      have htne : t ≠ [] := by
        apply h3 (by simp)
        rcases hq with hq | hq
        · exact Or.inl hq
        · right
          refine ⟨by omega, ?_⟩
          rw [h.kind]
          cases l with
          | zero => exact absurd rfl hq
          | succ l => rfl
      have htvne : tv ≠ [] := by intro h0; subst h0; simp at ht; exact htne ht
      have htvok : ∀ x ∈ tv, ItemAt E X f l x.1 x.2 := fun x hx =>
        h.vs_ok x (by rw [hv, hsplit]; simp [hx])
      have hrvok : ∀ x ∈ rv, ItemAt E X f l x.1 x.2 := fun x hx =>
        h.vs_ok x (by rw [hv, hsplit]; simp [hx])
      apply Sp.bind' (Q1 := fun x g => x = (t, r) ∧ g = f) (R1 := fun _ _ => False)
        (show Sp (ofExcept (.ok (t, r))) f _ _ from ⟨rfl, rfl⟩)
      · rintro x g ⟨rfl, rfl⟩
        simp only
        apply Sp.bind' (dbWriteBufCompressed_spec E _ g w)
        · rintro ⟨dp, ds⟩ g1 ⟨hext, hdp, hlt, hz, hpre, hds⟩
          simp only at hdp hds
          subst hdp
          simp only
          obtain ⟨red, hr1, hr2, hr3⟩ := nodeReduce_spec ok (E := E) (f := g) l tv htvne htvok
          rw [h.kind, ← ht, hr1]
          apply Sp.bind' (Q1 := fun x g => x = red ∧ g = g1) (R1 := fun _ _ => False)
            (show Sp (ofExcept (.ok red)) g1 _ _ from ⟨rfl, rfl⟩)
          · rintro x g2 ⟨rfl, rfl⟩
            rw [if_neg (by omega)]
            have hk := hext.keep w
            -- the new pointer
            obtain ⟨tl, tlast, htl⟩ : ∃ tl x, tv = tl ++ [x] :=
              ⟨tv.dropLast, tv.getLast htvne, (List.dropLast_concat_getLast htvne).symm⟩
            have hfk : finalKeyOf v0.1 (tv.map (·.1)) = tlast.1.key := by
              rw [htl]; simp [finalKeyOf]
            have hss : ((tv.map (·.1)).map Item.sub).sum = (tv.map (fun c => c.1.sub)).sum := by
              rw [List.map_map]; rfl
            refine ⟨hext, rfl, ps ++ [(ptrItem
                { key := tlast.1.key, pointer := g.pos, reduceValue := x,
                  subtreesize := (tv.map (fun c => c.1.sub)).sum + ds }, tv.flatMap (·.2))], rv,
              ⟨rfl, ?_, ?_, ?_, ?_, ?_, ?_, ?_⟩, ?_, ?_, ?_, ?_, ?_, ?_⟩
            · show mr.pointers ++ [_] = _
              rw [h.pointers, List.map_append, hfk, hss]
              rfl
            · exact hr.symm
            · intro y hy
              rcases List.mem_append.mp hy with hy | hy
              · exact (h.ps_ok y hy).keep hk
              · simp at hy
                subst hy
                refine ⟨_, rfl, ?_, ?_⟩
                · simp only
                  rw [htl, List.flatMap_append]
                  have hlast := htvok tlast (by rw [htl]; simp)
                  rw [List.flatMap_singleton, lastKey_append hlast.ne_nil]
                  exact hlast.lastKey
                · refine ⟨tv, htvne, fun c hc => (htvok c hc).keep hk, rfl, ?_, hr2, by simpa using hr3, ?_, ?_⟩
                  · show ZChunkAt E g2 g.pos _
                    rw [h.kind, ← ht] at hz
                    exact hz
                  · intro c hc q hcq
                    exact (htvok c hc).pointer_lt q hcq
                  · simp only
                    rw [chunkBytes_keep hk, hds, h.kind, ← ht]
            · intro y hy; exact (hrvok y hy).keep hk
            · show mr.nodeLen - (((kindOf l).byte :: encodeItems (tv.map (·.1))).length - 1) = _
              rw [List.length_cons, encodeItems_length, h.len, hv, hsplit, List.map_append,
                itemsSize_append]
              omega
            · show mr.count - (tv.map (·.1)).length = _
              rw [h.count, hv, hsplit, List.length_append, List.length_map]
              omega
            · rw [h.content, hv, hsplit, List.flatMap_append, List.flatMap_append]
              simp
            · intro hf; rw [hm'] at hf; exact absurd hf (by simp)
            · intro hle _
              have : r = [] := h4 (by
                rw [Nat.zero_add]
                simpa using hle)
              subst this
              simpa using hr
            · intro hl hlen
              have : 2 ≤ t.length := by
                have := h5 (by
                  rw [h.kind]
                  cases l with
                  | zero => exact absurd rfl hl
                  | succ l => rfl) (by
                    simp at hlen ⊢; omega)
                omega
              have h6 : (v0 :: vs0).length = tv.length + rv.length := by
                rw [hsplit, List.length_append]
              have h7 : t.length = tv.length := by rw [← ht, List.length_map]
              simp at h6 ⊢
              omega
            · intro _ _; simp
            · intro h0; simp at h0
            · rw [hsplit]; simp
          · exact fun _ _ h => h.elim
        · exact fun _ _ h => h.failT
      · exact fun _ _ h => h.elim

end Couchstore
