import Verif.Spec.Check
import Verif.Lemmas.Modify2

/-! Helper lemmas: stored trees pass the integrity check. -/

namespace Couchstore

theorem File.calm_wf {f : File} (w : f.WF) : f.calm.WF := ⟨w.pos_le, w.crc⟩

theorem File.calm_keep (f : File) : Keep f f.calm := ⟨fun _ _ _ => rfl, rfl, rfl, Nat.le_refl _⟩

theorem mapM_id_some {α β : Type} (g : α → β) (l : List α) :
    (l.map fun x => some (g x)).mapM id = some (l.map g) := by
  induction l with
  | nil => rfl
  | cons x xs ih => simp [List.mapM_cons, ih]

theorem nodeAt_spec {E : Env} (L : E.Laws) {f : File} (w : f.WF) {pos : Nat} {t : UInt8}
    {is : List Item} (hz : ZChunkAt E f pos (t :: encodeItems is))
    (hi : ∀ i ∈ is, i.key.length < 4096 ∧ i.data.length < 2 ^ 28) :
    nodeAt E f pos = some (t, is.map fun i => (i.key, i.data)) := by
  have h := readNode_spec E L pos t is f.calm w.crc (ChunkAt.keep hz f.calm_keep) hi
  unfold nodeAt
  cases hr : readNode E pos f.calm with
  | ok r g =>
    obtain ⟨rfl, _⟩ := h.ok hr
    simp only
    rw [mapM_id_some]
    rfl
  | error e g => exact absurd rfl (h.error hr).2

theorem chunkSize_spec {E : Env} (L : E.Laws) {f : File} (w : f.WF) {pos : Nat} {b : Bytes}
    (hz : ChunkAt E f pos b) : chunkSize E f pos = some (chunkBytes E f.cfg pos b).length := by
  have h := preadBin_spec E L pos b f.calm w.crc (ChunkAt.keep hz f.calm_keep)
  unfold chunkSize
  cases hr : preadBin E pos f.calm with
  | ok r g =>
    obtain ⟨rfl, _⟩ := h.ok hr
    simp only
    congr 1
    unfold chunkBytes
    cases f.cfg.cipher with
    | none => simp [enc32, length_beEnc]; omega
    | some k =>
      simp only [List.length_append, enc32, length_beEnc, L.cipher_length, L.mac_length]
      omega
  | error e g => exact absurd rfl (h.error hr).2

theorem checkKids_spec {E : Env} {X : Idx} {f : File} {l : Nat} (p : NodePointer)
    (check : NodePointer → Option (List KV))
    (hcheck : ∀ q kvs, TreeAt E X f l q kvs → check q = some kvs)
    (cs : List (Item × List KV)) (hcs : ∀ c ∈ cs, ItemAt E X f (l + 1) c.1 c.2)
    (hlt : ∀ c ∈ cs, ∀ q, c.1.pointer = some q → q.pointer < p.pointer) :
    ∃ size, checkKids check p (cs.map fun c => (c.1.key, c.1.data)) = some (cs.flatMap (·.2), size) ∧
      size % 2 ^ 48 = (cs.map (fun c => c.1.sub)).sum % 2 ^ 48 := by
  induction cs with
  | nil => exact ⟨0, rfl, rfl⟩
  | cons c cs ih =>
    obtain ⟨size, h1, h2⟩ := ih (fun d hd => hcs d (by simp [hd])) (fun d hd => hlt d (by simp [hd]))
    obtain ⟨q, hq, hr, hk, ht, hk', ht'⟩ := (hcs c (by simp)).ptr
    have hcq : c.1.key = q.key := by rw [hq]; rfl
    refine ⟨(truncPtr q).subtreesize + size, ?_, ?_⟩
    · rw [List.map_cons, checkKids, hr]
      simp only
      rw [hcheck _ _ ht', h1]
      simp only
      rw [if_pos]
      · simp
      · refine ⟨hlt c (by simp) q (by rw [hq]; rfl), ?_⟩
        rw [hcq]; exact hk
    · rw [List.map_cons, List.sum_cons]
      have : c.1.sub = q.subtreesize := by rw [hq]; rfl
      rw [this]
      unfold truncPtr
      simp only
      omega

theorem checkTree_spec {E : Env} (L : E.Laws) {X : Idx} {f : File} (w : f.WF)
    (redOk : List KV → Bytes → Bool) (hred : ∀ kvs r, X.R kvs r → redOk kvs r = true)
    (hV : ∀ kv, X.V kv → kv.1.length < 4096) :
    ∀ {l p kvs}, TreeAt E X f l p kvs → checkTree E f redOk l p = some kvs
  | 0, p, kvs, h => by
    obtain ⟨cs, h1, h2, rfl, hz, hR, hlen, hptr, hsub⟩ := h
    have hn := nodeAt_spec L w hz (by
      intro i hi
      obtain ⟨c, hc, rfl⟩ := List.mem_map.mp hi
      exact (h2 c hc).fits hV)
    have hs := chunkSize_spec L w hz
    have hitems : (cs.map (·.1)).map (fun i => (i.key, i.data)) = cs.flatMap (·.2) := by
      have := leaf_items h2
      have h3 := congrArg (List.filterMap id) this
      simpa [List.filterMap_map, Function.comp_def] using h3
    have hsum : (cs.map (fun c => c.1.sub)).sum = 0 := by
      clear h1 hz hR hlen hptr hsub hn hs hitems
      induction cs with
      | nil => rfl
      | cons c cs ih =>
        rw [List.map_cons, List.sum_cons, ih (fun d hd => h2 d (by simp [hd]))]
        unfold Item.sub
        rw [(h2 c (by simp)).1]
    unfold checkTree
    rw [hn, hs, hitems]
    simp only
    rw [if_pos]
    refine ⟨rfl, flatMap_ne_nil h1 (fun c hc => (h2 c hc).ne_nil), hred _ _ hR, ?_⟩
    rw [hsub, hsum, Nat.zero_add]
  | l + 1, p, kvs, h => by
    obtain ⟨cs, h1, h2, rfl, hz, hR, _, hlt, hsub⟩ := h
    have hn := nodeAt_spec L w hz (by
      intro i hi
      obtain ⟨c, hc, rfl⟩ := List.mem_map.mp hi
      exact (h2 c hc).fits hV)
    have hs := chunkSize_spec L w hz
    obtain ⟨size, hk1, hk2⟩ := checkKids_spec p (checkTree E f redOk l)
      (fun q kvs hq => checkTree_spec L w redOk hred hV hq) cs h2 hlt
    unfold checkTree
    rw [hn, hs, List.map_map]
    simp only
    have : (cs.map ((fun i : Item => (i.key, i.data)) ∘ fun x => x.1)) =
        cs.map fun c => (c.1.key, c.1.data) := rfl
    rw [this, hk1]
    simp only
    rw [if_pos]
    refine ⟨rfl, by simpa using h1, hred _ _ hR, ?_⟩
    rw [hsub]
    omega

theorem ascending_of_sorted {cmp} : ∀ {kvs : List KV}, SortedKV cmp kvs → ascending cmp kvs = true
  | [], _ => rfl
  | [_], _ => rfl
  | a :: b :: rest, h => by
    unfold ascending
    rw [(List.pairwise_cons.mp h).1 b (by simp), ascending_of_sorted (List.pairwise_cons.mp h).2]
    rfl

end Couchstore
