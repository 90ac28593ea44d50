import Verif.Lemmas.Scan

/-! Helper lemmas: counting changes in a range through the stored reductions. -/

namespace Couchstore

/-- Is the key within the inclusive range? -/
def inSeq (left right k : Bytes) : Bool := seqCmp k left ≠ .lt && seqCmp k right ≠ .gt

/-- The number of entries in the range. -/
def seqCount (left right : Bytes) (kvs : List KV) : Nat := kvs.countP fun kv => inSeq left right kv.1

theorem seqCount_append (left right : Bytes) (a b : List KV) :
    seqCount left right (a ++ b) = seqCount left right a + seqCount left right b := by
  unfold seqCount; exact List.countP_append

theorem seqCount_zero {left right : Bytes} {kvs : List KV}
    (h : ∀ kv ∈ kvs, seqCmp kv.1 left = .lt ∨ seqCmp kv.1 right = .gt) : seqCount left right kvs = 0 := by
  unfold seqCount
  rw [List.countP_eq_zero]
  intro kv hkv
  unfold inSeq
  rcases h kv hkv with h | h <;> simp [h]

theorem seqCount_all {left right : Bytes} {kvs : List KV}
    (h : ∀ kv ∈ kvs, seqCmp kv.1 left ≠ .lt ∧ seqCmp kv.1 right ≠ .gt) :
    seqCount left right kvs = kvs.length := by
  unfold seqCount
  rw [List.countP_eq_length]
  intro kv hkv
  unfold inSeq
  simp [h kv hkv]

/-- The recursive call counts the entries of a subtree. -/
def CountDesc (left right : Bytes) (recurse : Bool → Nat → Nat → M Nat) (f : File) (pos : Nat)
    (kvs : List KV) : Prop :=
  ∀ g, RFrame f g → ∀ past acc, (past = true → ∀ kv ∈ kvs, seqCmp kv.1 left ≠ .lt) →
    Sp (recurse past pos acc) g
      (fun r h => RFrame g h ∧ r = acc + seqCount left right kvs) (FailR g)

theorem evalSeqLoop_leaf (left right : Bytes) (hr : right.length = 6)
    (recurse) (kvs : List KV) (hs : SortedKV seqCmp kvs) (hK : ∀ kv ∈ kvs, kv.1.length = 6)
    (past : Bool) (acc : Nat) (f : File) :
    Sp (evalSeqLoop false left right recurse (kvs.map some) past acc) f
      (fun r g => g = f ∧ r = acc + seqCount left right kvs) (fun _ _ => False) := by
  have C := seqCmp_laws
  induction kvs generalizing acc with
  | nil => exact ⟨rfl, rfl⟩
  | cons kv kvs ih =>
    obtain ⟨p1, p2⟩ := List.pairwise_cons.mp hs
    have ih := fun acc => ih p2 (fun kv h => hK kv (by simp [h])) acc
    have hk := hK kv (by simp)
    have hcons : seqCount left right (kv :: kvs) = seqCount left right [kv] + seqCount left right kvs :=
      seqCount_append left right [kv] kvs
    obtain ⟨k, v⟩ := kv
    simp only [List.map_cons]
    unfold evalSeqLoop
    by_cases h1 : seqCmp k left = .lt
    · rw [if_pos h1, hcons, seqCount_zero (kvs := [(k, v)]) (by simp [h1]), Nat.zero_add]
      exact ih acc
    · rw [if_neg h1, if_neg (by simp)]
      by_cases h2 : seqCmp k right = .gt
      · rw [if_pos h2, seqCount_zero]
        · exact ⟨rfl, rfl⟩
        · intro kv hkv
          rcases List.mem_cons.mp hkv with rfl | hkv
          · exact Or.inr h2
          · right
            have hkk := hK kv (by simp [hkv])
            exact C.lt_gt hr hkk (C.trans _ _ _ hr hk hkk (C.gt_lt hk hr h2) (p1 kv hkv))
      · rw [if_neg h2, hcons, seqCount_all (kvs := [(k, v)]) (by simp [h1, h2])]
        rw [← Nat.add_assoc]
        exact ih (acc + 1)

theorem slice_encodePointer (p : NodePointer) (hp : p.pointer < 2 ^ 48) (n : Nat)
    (hr : p.reduceValue = enc40 n) :
    (encodePointer p).length = 19 ∧ beDec (slice (encodePointer p) 0 6) = p.pointer ∧
      beDec (slice (encodePointer p) 14 5) = n % 2 ^ 40 := by
  unfold encodePointer
  rw [hr]
  refine ⟨by simp, ?_, ?_⟩
  · have : slice (enc48 p.pointer ++ enc48 p.subtreesize ++ enc16 (enc40 n).length ++ enc40 n) 0 6 =
        enc48 p.pointer := by
      unfold slice
      rw [List.drop_zero, List.append_assoc, List.append_assoc]
      exact List.take_left' (by simp)
    rw [this]
    exact beDec_beEnc _ _ (by simpa using hp)
  · have : slice (enc48 p.pointer ++ enc48 p.subtreesize ++ enc16 (enc40 n).length ++ enc40 n) 14 5 =
        enc40 n := by
      unfold slice
      rw [List.drop_left' (by simp)]
      exact List.take_of_length_le (by simp)
    rw [this, beDec_beEnc_mod]

theorem evalSeqLoop_kp {E : Env} (left right : Bytes) (hl : left.length = 6) (hr : right.length = 6)
    (recurse) (l : Nat) (f0 : File) (cs : List (Item × List KV))
    (hcs : ∀ c ∈ cs, ItemAt E Idx.bySeq f0 (l + 1) c.1 c.2)
    (hlen : (cs.flatMap (·.2)).length < 2 ^ 40)
    (hs : SortedKV seqCmp (cs.flatMap (·.2))) (hK : ∀ kv ∈ cs.flatMap (·.2), kv.1.length = 6)
    (hd : ∀ c ∈ cs, ∀ p, TreeAt E Idx.bySeq f0 l p c.2 → CountDesc left right recurse f0 p.pointer c.2)
    (past : Bool) (acc : Nat) (f : File) (hf : RFrame f0 f)
    (hp : past = true → ∀ kv ∈ cs.flatMap (·.2), seqCmp kv.1 left ≠ .lt) :
    Sp (evalSeqLoop true left right recurse (recsOf cs) past acc) f
      (fun r g => RFrame f g ∧ r = acc + seqCount left right (cs.flatMap (·.2)))
      (FailR f) := by
  have C := seqCmp_laws
  induction cs generalizing past acc f with
  | nil => exact ⟨RFrame.refl _, rfl⟩
  | cons x cs ih =>
    rw [List.flatMap_cons] at hs hK hp hlen
    rw [List.length_append] at hlen
    obtain ⟨hs1, hs2, hs3⟩ := List.pairwise_append.mp hs
    have hK1 : ∀ kv ∈ x.2, kv.1.length = 6 := fun kv h => hK kv (by simp [h])
    have hK2 : ∀ kv ∈ cs.flatMap (·.2), kv.1.length = 6 := fun kv h => hK kv (List.mem_append_right _ h)
    obtain ⟨p, hpt, hrp, hlk, htree, -, -⟩ := (hcs x (by simp)).ptr
    have hxk : x.1.key = p.key := by rw [hpt]; rfl
    have hxd : x.1.data = encodePointer p := by rw [hpt]; rfl
    obtain ⟨vl, hvl⟩ := lastKey_mem hlk
    have hck : p.key.length = 6 := hK1 _ hvl
    have hle := SortedKV.le_last C hs1 hK1 hlk
    obtain ⟨_, _, _, _, hz, hR, _, _⟩ := id htree
    have hred : p.reduceValue = enc40 x.2.length := hR
    obtain ⟨l1, l2, l3⟩ := slice_encodePointer p (by have := hz.2.1; omega) _ hred
    have ih' := fun past acc f hf hp => ih (fun c hc => hcs c (by simp [hc])) (by omega) hs2 hK2
      (fun c hc => hd c (by simp [hc])) past acc f hf hp
    have hgt : ∀ kv ∈ cs.flatMap (·.2), seqCmp p.key kv.1 = .lt := fun kv hkv => hs3 _ hvl kv hkv
    show Sp (evalSeqLoop true left right recurse (some (x.1.key, x.1.data) :: recsOf cs) past acc) f _ _
    unfold evalSeqLoop
    rw [hxk, hxd, List.flatMap_cons, seqCount_append]
    by_cases h1 : seqCmp p.key left = .lt
    · rw [if_pos h1, seqCount_zero (kvs := x.2) (fun kv hkv =>
        Or.inl (C.le_trans_lt (hK1 kv hkv) hck hl (hle kv hkv) h1)), Nat.zero_add]
      exact ih' past acc f hf fun h kv hkv => hp h kv (List.mem_append_right _ hkv)
    · have hrest : ∀ kv ∈ cs.flatMap (·.2), seqCmp kv.1 left ≠ .lt := by
        intro kv hkv h0
        exact h1 (C.trans _ _ _ hck (hK2 kv hkv) hl (hgt kv hkv) h0)
      rw [if_neg h1, if_pos rfl, if_neg (by rw [l1]; omega)]
      by_cases h2 : past = false ∨ seqCmp p.key right ≠ .lt
      · rw [if_pos h2, l2]
        refine Sp.bind' (hd x (by simp) p htree f hf past acc fun h kv hkv => hp h kv (by simp [hkv])) ?_
          fun _ _ h => h
        rintro acc' g ⟨k1, k2⟩
        by_cases h3 : seqCmp p.key right ≠ .lt
        · rw [if_pos h3, seqCount_zero (kvs := cs.flatMap (·.2))]
          · exact ⟨k1, k2⟩
          · intro kv hkv
            right
            have hkk := hK2 kv hkv
            have h4 : seqCmp right p.key ≠ .gt := by
              intro h0; exact h3 (C.gt_lt hr hck h0)
            exact C.lt_gt hr hkk (C.le_trans_lt hr hck hkk h4 (hgt kv hkv))
        · rw [if_neg h3]
          refine (ih' true acc' g (hf.trans k1) fun _ => hrest).mono ?_ ?_
          · rintro r g' ⟨m1, m2⟩
            refine ⟨k1.trans m1, ?_⟩
            rw [m2]; omega
          · rintro e g' ⟨m1, m2⟩
            exact ⟨k1.trans m1, k1.faults_ne m2⟩
      · rw [if_neg h2, l3]
        have h2a : past = true := by
          cases past with
          | true => rfl
          | false => exact absurd (Or.inl rfl) h2
        have h2b : seqCmp p.key right = .lt := Classical.byContradiction fun h => h2 (Or.inr h)
        refine (ih' past _ f hf fun _ => hrest).mono ?_ fun _ _ h => h
        rintro r g ⟨m1, m2⟩
        refine ⟨m1, ?_⟩
        rw [m2, seqCount_all (kvs := x.2), Nat.mod_eq_of_lt (by omega)]
        · omega
        · intro kv hkv
          refine ⟨hp h2a kv (by simp [hkv]), ?_⟩
          rw [C.le_trans_lt (hK1 kv hkv) hck hr (hle kv hkv) h2b]
          simp

theorem evalSeqReduce_spec (E : Env) (L : E.Laws) (left right : Bytes) (hl : left.length = 6)
    (hr : right.length = 6) (fuel l : Nat) (hfl : l < fuel) (p : NodePointer) (kvs : List KV) (f : File)
    (w : f.WF) (h : TreeAt E Idx.bySeq f l p kvs) (hs : SortedKV seqCmp kvs) (hlen : kvs.length < 2 ^ 40) :
    CountDesc left right (evalSeqReduce E left right fuel) f p.pointer kvs := by
  induction fuel generalizing l p kvs f with
  | zero => omega
  | succ fuel ih =>
    intro g hg past acc hp
    have wg := hg.wf w
    have hV : ∀ kv, Idx.bySeq.V kv → kv.1.length = 6 ∧ kv.1.length < 4096 := by
      rintro kv ⟨d, -, rfl⟩; simp [seqKV]
    have hK : ∀ kv ∈ kvs, kv.1.length = 6 := fun kv hkv => (hV kv (h.valid kv hkv)).1
    unfold evalSeqReduce
    obtain ⟨cs, hne, hcs, rfl, hz, _⟩ := h.keep hg.keep
    refine Sp.bind' (readNode_spec E L p.pointer (kindOf l).byte (cs.map (·.1)) g wg.crc hz (by
      intro i hi
      obtain ⟨c, hc, rfl⟩ := List.mem_map.mp hi
      exact (hcs c hc).fits (fun kv hkv => (hV kv hkv).2))) ?_ fun _ _ h => h
    rintro ⟨t, recs⟩ g1 ⟨hr0, hr1⟩
    injection hr0 with ht hrecs
    subst ht
    dsimp only
    cases l with
    | zero =>
      rw [hrecs, leaf_items hcs]
      refine (evalSeqLoop_leaf left right hr _ _ hs hK past acc g1).mono ?_ fun _ _ h => h.elim
      rintro r g2 ⟨rfl, rfl⟩
      exact ⟨hr1, rfl⟩
    | succ l =>
      rw [hrecs, List.map_map]
      refine (evalSeqLoop_kp (E := E) left right hl hr _ l g1 cs (fun c hc => (hcs c hc).keep hr1.keep) hlen hs hK
        (fun c hc p' htree => ih l (by omega) p' c.2 g1 (hr1.wf wg) htree (by
            obtain ⟨a, b, hab⟩ := List.append_of_mem hc
            rw [hab, List.flatMap_append, List.flatMap_cons] at hs
            exact (List.pairwise_append.mp (List.pairwise_append.mp hs).2.1).1) (by
            obtain ⟨a, b, hab⟩ := List.append_of_mem hc
            rw [hab, List.flatMap_append, List.flatMap_cons] at hlen
            simp only [List.length_append] at hlen
            omega))
        past acc g1 (RFrame.refl _) hp).mono ?_ ?_
      · rintro r g2 ⟨h1, h2⟩
        exact ⟨hr1.trans h1, h2⟩
      · rintro r g2 ⟨h1, h2⟩
        exact ⟨hr1.trans h1, hr1.faults_ne h2⟩

theorem seqCount_seqKVs (l : List Entry) (hl : ∀ x ∈ l, DocOk x.info) (a b : Nat) (ha : a < 2 ^ 48)
    (hb : b < 2 ^ 48) :
    seqCount (enc48 a) (enc48 b) (seqKVs l) =
      (l.map (·.info)).countP fun d => decide (a ≤ d.dbSeq) && decide (d.dbSeq ≤ b) := by
  unfold seqCount seqKVs
  rw [List.countP_map, List.countP_map]
  apply List.countP_congr
  intro x hx
  have hx := (hl x hx).fits.dbSeq
  simp only [Function.comp_apply, seqKV, inSeq, seqCmp_enc48 hx ha, seqCmp_enc48 hx hb, Bool.and_eq_true,
    decide_eq_true_eq]
  have e1 : ∀ u v : Nat, ((if u = v then Ordering.eq else if u < v then .lt else .gt) ≠ .lt) ↔ v ≤ u := by
    intro u v
    split
    · simp; omega
    · split <;> simp <;> omega
  have e2 : ∀ u v : Nat, ((if u = v then Ordering.eq else if u < v then .lt else .gt) ≠ .gt) ↔ u ≤ v := by
    intro u v
    split
    · simp; omega
    · split <;> simp <;> omega
  rw [e1, e2]

theorem changesCount_spec (E : Env) (L : E.Laws) (db : Db) {ids seqs locs}
    (inv : Inv E db ids seqs locs) (a b : Nat) :
    Sp (changesCount E a b) db
      (fun r d => RD db d ∧ r = (seqs.map (·.info)).countP fun d =>
        decide (a % 2 ^ 48 ≤ d.dbSeq) && decide (d.dbSeq ≤ b % 2 ^ 48))
      (fun _ d => RD db d ∧ db.file.faults ≠ []) := by
  unfold changesCount
  apply Sp.get_bind
  cases hr : db.header.bySeqRoot with
  | none =>
    have h0 := inv.seqRoot.none_iff.mp hr
    have : seqs = [] := by unfold seqKVs at h0; simpa using h0
    subst this
    exact ⟨RD.refl _, rfl⟩
  | some p =>
    have hroot := inv.seqRoot
    rw [hr] at hroot
    obtain ⟨l, ht⟩ := hroot
    have h1 := ht.height
    have h2 := ht.pointer_lt
    have h3 := inv.wf.pos_le
    refine (liftF_spec (evalSeqReduce_spec E L (enc48 a) (enc48 b) (by simp) (by simp) _ l (by omega) p
      (seqKVs seqs) db.file inv.wf ht (sorted_seqKVs inv.seqSorted inv.seqOk)
      (by unfold seqKVs; rw [List.length_map, inv.perm.length_eq]; exact inv.few) db.file (RFrame.refl _) false 0
      (by simp))).mono ?_ ?_
    · rintro r d ⟨k1, k2, k3⟩
      refine ⟨⟨k1, k2⟩, ?_⟩
      rw [k3, Nat.zero_add, enc48_mod a, enc48_mod b,
        seqCount_seqKVs seqs inv.seqOk _ _ (Nat.mod_lt _ (by decide)) (Nat.mod_lt _ (by decide))]
    · rintro e d ⟨k1, k2, k3⟩
      exact ⟨⟨k1, k2⟩, k3⟩

end Couchstore
