import Verif.Spec.IndexHeader
import Verif.Lemmas.ViewGroup
import Verif.Lemmas.Node
import Verif.Lemmas.OpenDb
import Mathlib.Data.List.Forall2

namespace Couchstore

/-! ### Reading what was written -/

/-- The decoder reads exactly these bytes. -/
def Reads {α : Type} (d : Dec α) (b : Bytes) (x : α) : Prop := ∀ rest, d (b ++ rest) = .ok (x, rest)

theorem Reads.bind {α β : Type} {d : Dec α} {k : α → Dec β} {a b : Bytes} {x : α} {y : β} (h : Reads d a x)
    (h' : Reads (k x) b y) : Reads (d >>= k) (a ++ b) y := by
  intro rest
  show (StateT.bind d k) _ = _
  unfold StateT.bind
  rw [List.append_assoc]
  show Except.bind (d _) _ = _
  rw [h (b ++ rest)]
  exact h' rest

theorem Reads.pure {α : Type} (x : α) : Reads (pure x : Dec α) [] x := fun _ => rfl

theorem Reads.map {α β : Type} {d : Dec α} {k : α → β} {a : Bytes} {x : α} (h : Reads d a x) :
    Reads (do let x ← d; Pure.pure (k x)) a (k x) := by
  have := h.bind (k := fun x => Pure.pure (k x)) (Reads.pure (k x))
  simpa using this

theorem reads_take (b : Bytes) (n : Nat) (h : b.length = n) : Reads (decTake n) b b := by
  intro rest
  unfold decTake
  rw [if_neg (by simp; omega), List.take_left' h, List.drop_left' h]

theorem reads_nat (w n : Nat) (h : n < 256 ^ w) : Reads (decNat w) (beEnc w n) n := by
  have := (reads_take (beEnc w n) w (by simp)).map (k := beDec)
  rwa [beDec_beEnc w n h] at this

theorem reads_byte (n : Nat) (h : n < 256) : Reads (decNat 1) [UInt8.ofNat n] n := by
  have := reads_nat 1 n (by omega)
  simpa [beEnc] using this

theorem reads_list {α : Type} {d : Dec α} {add : List α → α → List α} {enc : α → Bytes} :
    ∀ (l acc : List α), (∀ x ∈ l, Reads d (enc x) x) →
      Reads (decList d add l.length acc) (l.flatMap enc) (l.foldl add acc)
  | [], acc, _ => Reads.pure acc
  | x :: l, acc, h => by
    rw [List.length_cons, List.flatMap_cons, List.foldl_cons]
    unfold decList
    exact (h x (by simp)).bind (reads_list l _ fun y hy => h y (by simp [hy]))

/-! ### Sorted lists -/

section
variable {α : Type} (key : α → Nat)

theorem sortedAdd_last {cmp : α → α → Int} (hc : ∀ a b, cmp a b = (key a : Int) - key b) (x : α) :
    ∀ l : List α, (∀ y ∈ l, key y < key x) → sortedAdd cmp l x = l ++ [x]
  | [], _ => rfl
  | y :: l, h => by
    have := h y (by simp)
    unfold sortedAdd
    rw [if_neg (by rw [hc]; omega), sortedAdd_last hc x l fun z hz => h z (by simp [hz])]
    rfl

theorem foldl_sortedAdd {cmp : α → α → Int} (hc : ∀ a b, cmp a b = (key a : Int) - key b) :
    ∀ l acc : List α, (acc ++ l).Pairwise (fun a b => key a < key b) → l.foldl (sortedAdd cmp) acc = acc ++ l
  | [], acc, _ => by simp
  | x :: l, acc, h => by
    rw [List.foldl_cons, sortedAdd_last key hc x acc, foldl_sortedAdd hc l (acc ++ [x]) (by simpa using h)]
    · simp
    · intro y hy
      rw [List.pairwise_append] at h
      exact h.2.2 y hy x (by simp)

theorem mem_sortedAdd {cmp : α → α → Int} (x y : α) :
    ∀ l : List α, y ∈ sortedAdd cmp l x → y = x ∨ y ∈ l
  | [], h => by simpa [sortedAdd] using h
  | z :: l, h => by
    unfold sortedAdd at h
    split at h
    · split at h <;> simp only [List.mem_cons] at h ⊢
      · rcases h with h | h
        · exact Or.inl h
        · exact Or.inr (Or.inr h)
      · exact h
    · rw [List.mem_cons] at h ⊢
      rcases h with h | h
      · exact Or.inr (Or.inl h)
      · rcases mem_sortedAdd x y l h with h | h
        · exact Or.inl h
        · exact Or.inr (Or.inr h)

theorem sortedAdd_length {cmp : α → α → Int} (x : α) : ∀ l : List α, (sortedAdd cmp l x).length ≤ l.length + 1
  | [] => by simp [sortedAdd]
  | z :: l => by
    unfold sortedAdd
    split
    · split <;> simp
    · simpa using sortedAdd_length x l

theorem sortedAdd_sorted {cmp : α → α → Int} (hc : ∀ a b, cmp a b = (key a : Int) - key b) (x : α) :
    ∀ l : List α, l.Pairwise (fun a b => key a < key b) → (sortedAdd cmp l x).Pairwise fun a b => key a < key b
  | [], _ => by simp [sortedAdd]
  | z :: l, h => by
    rw [List.pairwise_cons] at h
    unfold sortedAdd
    rw [hc]
    split
    · split
      · rw [List.pairwise_cons]
        refine ⟨fun y hy => ?_, h.2⟩
        have := h.1 y hy
        omega
      · rw [List.pairwise_cons, List.pairwise_cons]
        refine ⟨fun y hy => ?_, h⟩
        rw [List.mem_cons] at hy
        rcases hy with rfl | hy
        · omega
        · have := h.1 y hy
          omega
    · rw [List.pairwise_cons]
      refine ⟨fun y hy => ?_, sortedAdd_sorted hc x l h.2⟩
      rcases mem_sortedAdd x y l hy with rfl | hy
      · omega
      · exact h.1 y hy

theorem sorted_unique : ∀ {l : List α}, l.Pairwise (fun a b => key a < key b) → ∀ {x y}, x ∈ l → y ∈ l → key x = key y → x = y
  | [], _, _, _, hx, _, _ => by simp at hx
  | z :: l, h, x, y, hx, hy, e => by
    rw [List.pairwise_cons] at h
    rw [List.mem_cons] at hx hy
    rcases hx with rfl | hx <;> rcases hy with rfl | hy
    · rfl
    · have := h.1 y hy; omega
    · have := h.1 x hx; omega
    · exact sorted_unique h.2 hx hy e

theorem sortedRemove_sub {cmp : α → α → Int} (x : α) : ∀ l : List α, (sortedRemove cmp l x).Sublist l
  | [] => List.Sublist.refl _
  | z :: l => by
    unfold sortedRemove
    split
    · exact List.sublist_cons_self _ _
    · split
      · exact List.Sublist.refl _
      · exact (sortedRemove_sub x l).cons_cons _

theorem sortedGet_eq {cmp : α → α → Int} (hc : ∀ a b, cmp a b = (key a : Int) - key b) (y : α) :
    ∀ l : List α, l.Pairwise (fun a b => key a < key b) → sortedGet cmp l y = l.find? fun z => key z == key y
  | [], _ => rfl
  | z :: l, h => by
    rw [List.pairwise_cons] at h
    unfold sortedGet
    rw [hc, List.find?_cons]
    by_cases e : key z = key y
    · rw [if_pos (by omega)]; simp [e]
    · rw [if_neg (by omega), show (key z == key y) = false by simpa using e]
      split
      · symm
        rw [List.find?_eq_none]
        intro w hw
        have := h.1 w hw
        simp; omega
      · exact sortedGet_eq hc y l h.2

theorem find_sortedAdd {cmp : α → α → Int} (hc : ∀ a b, cmp a b = (key a : Int) - key b) (x : α) (k : Nat) :
    ∀ l : List α, l.Pairwise (fun a b => key a < key b) →
      (sortedAdd cmp l x).find? (fun z => key z == k) = if key x = k then some x else l.find? fun z => key z == k
  | [], _ => by simp [sortedAdd, List.find?_cons]; split <;> simp_all
  | z :: l, h => by
    rw [List.pairwise_cons] at h
    unfold sortedAdd
    rw [hc]
    split
    · split
      · rw [List.find?_cons]
        by_cases e : key x = k
        · simp [e]
        · rw [if_neg e, show (key x == k) = false by simpa using e, List.find?_cons,
            show (key z == k) = false by simp; omega]
      · rw [List.find?_cons]
        by_cases e : key x = k
        · simp [e]
        · rw [if_neg e, show (key x == k) = false by simpa using e]
    · rw [List.find?_cons, find_sortedAdd hc x k l h.2, List.find?_cons]
      by_cases e : key x = k
      · rw [if_pos e, if_pos e, show (key z == k) = false by simp; omega]
      · rw [if_neg e, if_neg e]

theorem find_sortedRemove {cmp : α → α → Int} (hc : ∀ a b, cmp a b = (key a : Int) - key b) (x : α) (k : Nat) :
    ∀ l : List α, l.Pairwise (fun a b => key a < key b) →
      (sortedRemove cmp l x).find? (fun z => key z == k) = if key x = k then none else l.find? fun z => key z == k
  | [], _ => by simp [sortedRemove]
  | z :: l, h => by
    rw [List.pairwise_cons] at h
    have hnone : key x ≤ key z → key x = k → l.find? (fun z => key z == k) = none := by
      intro h1 h2
      rw [List.find?_eq_none]
      intro w hw
      have := h.1 w hw
      simp; omega
    unfold sortedRemove
    rw [hc]
    split
    · by_cases e : key x = k
      · rw [if_pos e]; exact hnone (by omega) e
      · rw [if_neg e, List.find?_cons, show (key z == k) = false by simp; omega]
    · split
      · by_cases e : key x = k
        · rw [if_pos e, List.find?_cons, show (key z == k) = false by simp; omega]
          exact hnone (by omega) e
        · rw [if_neg e]
      · rw [List.find?_cons, find_sortedRemove hc x k l h.2, List.find?_cons]
        by_cases e : key x = k
        · rw [if_pos e, if_pos e, show (key z == k) = false by simp; omega]
        · rw [if_neg e, if_neg e]

end

/-! ### The fields -/

theorem partIdCmp_key (a b : Nat) : partIdCmp a b = ((id a : Nat) : Int) - (id b : Nat) := rfl

theorem reads_partIds (l : List Nat) (h : PartIdsOk l) : Reads decPartIds (encPartIds l) l := by
  obtain ⟨h1, h2, h3⟩ := h
  unfold decPartIds encPartIds
  refine (reads_nat 2 _ (by omega)).bind ?_
  have := reads_list (d := decNat 2) (add := sortedAdd partIdCmp) (enc := enc16) l [] fun x hx => reads_nat 2 x (by have := h3 x hx; omega)
  rwa [foldl_sortedAdd id partIdCmp_key l [] (by simpa using h1)] at this

theorem reads_partSeq (x : Nat × Nat) (h1 : x.1 < 2 ^ 16) (h2 : x.2 < 2 ^ 48) :
    Reads decPartSeq (enc16 x.1 ++ enc48 x.2) x := by
  unfold decPartSeq
  exact (reads_nat 2 _ (by omega)).bind ((reads_nat 6 _ (by omega)).map (k := fun s => (x.1, s)))

theorem reads_partSeqs (l : List (Nat × Nat)) (h : PartSeqsOk l) : Reads decPartSeqs (encPartSeqs l) l := by
  obtain ⟨⟨h1, h2, h3⟩, h4⟩ := h
  unfold decPartSeqs encPartSeqs
  simp only [List.length_map] at h2
  refine (reads_nat 2 _ (by omega)).bind ?_
  have := reads_list (d := decPartSeq) (add := sortedAdd partSeqCmp) (enc := fun x => enc16 x.1 ++ enc48 x.2) l []
    fun x hx => reads_partSeq x (h3 _ (List.mem_map_of_mem hx)) (h4 x hx)
  rwa [foldl_sortedAdd (cmp := partSeqCmp) (fun x => x.1) (fun _ _ => rfl) l [] (by simpa [List.pairwise_map] using h1)] at this

theorem foldl_append_one {α : Type} (l acc : List α) : l.foldl (fun l x => l ++ [x]) acc = acc ++ l := by
  induction l generalizing acc with
  | nil => simp
  | cons x l ih => rw [List.foldl_cons, ih]; simp

theorem reads_partVersion (x : PartVersion) (h1 : x.partId < 2 ^ 16) (h2 : x.log.length < 2 ^ 16)
    (h3 : ∀ y ∈ x.log, y.1.length = 8 ∧ y.2 < 2 ^ 64) :
    Reads decPartVersion (enc16 x.partId ++ enc16 x.log.length ++ x.log.flatMap fun y => y.1 ++ enc64 y.2) x := by
  unfold decPartVersion
  rw [List.append_assoc]
  refine (reads_nat 2 _ (by omega)).bind ((reads_nat 2 _ (by omega)).bind ?_)
  have := reads_list (d := decLogEntry) (add := fun l x => l ++ [x]) (enc := fun y => y.1 ++ enc64 y.2) x.log []
    fun y hy => by
      unfold decLogEntry
      exact (reads_take y.1 8 (h3 y hy).1).bind ((reads_nat 8 _ (by have := (h3 y hy).2; omega)).map (k := fun s => (y.1, s)))
  rw [foldl_append_one, List.nil_append] at this
  exact this.map (k := fun l => (⟨x.partId, l⟩ : PartVersion))

theorem reads_partVersions (l : List PartVersion) (h : PartVersionsOk l) : Reads decPartVersions (encPartVersions l) l := by
  obtain ⟨⟨h1, h2, h3⟩, h4⟩ := h
  unfold decPartVersions encPartVersions
  simp only [List.length_map] at h2
  refine (reads_nat 2 _ (by omega)).bind ?_
  have := reads_list (d := decPartVersion) (add := sortedAdd partVersionCmp) l []
    fun x hx => reads_partVersion x (h3 _ (List.mem_map_of_mem hx)) (h4 x hx).1 (h4 x hx).2
  rwa [foldl_sortedAdd (cmp := partVersionCmp) (fun x => x.partId) (fun _ _ => rfl) l [] (by simpa [List.pairwise_map] using h1)] at this

/-- What is read of a root that was written into a header. -/
def storedRoot (r : Option NodePointer) : Option NodePointer :=
  readRoot ((encodeRoot r).take ((encodeRoot r).length % 2 ^ 16))

theorem reads_root (r : Option NodePointer) : Reads decRoot (encRootField r) (storedRoot r) := by
  unfold decRoot encRootField storedRoot
  have h : enc16 (encodeRoot r).length = enc16 ((encodeRoot r).length % 2 ^ 16) := by
    have := beEnc_mod 2 (encodeRoot r).length 2 (Nat.le_refl _)
    simpa using this.symm
  rw [h]
  refine (reads_nat 2 _ (by omega)).bind ?_
  exact (reads_take _ _ (by rw [List.length_take]; exact Nat.min_eq_left (Nat.mod_le _ _))).map (k := readRoot)

theorem reads_roots : ∀ (l acc : List (Option NodePointer)),
    Reads (decList decRoot (fun l x => l ++ [x]) l.length acc) (l.flatMap encRootField) (acc ++ l.map storedRoot)
  | [], acc => by rw [List.map_nil, List.append_nil]; exact Reads.pure acc
  | r :: l, acc => by
    rw [List.length_cons, List.flatMap_cons, List.map_cons]
    unfold decList
    have := (reads_root r).bind (k := fun x => decList decRoot (fun l x => l ++ [x]) l.length (acc ++ [x]))
      (reads_roots l (acc ++ [storedRoot r]))
    simpa using this

/-- What is read of a header that was written. -/
def IndexHeader.stored (h : IndexHeader) : IndexHeader :=
  { h with idRoot := storedRoot h.idRoot, views := h.views.map storedRoot }

theorem reads_fields (h : IndexHeader) (ok : h.Ok) : Reads (decodeFields h.signature) (encodeFields h) h.stored := by
  unfold encodeFields
  rw [show ∀ (x : UInt8) (l : Bytes), x :: l = [x] ++ l from fun _ _ => rfl,
    show ∀ (x : UInt8) (l : Bytes), x :: l = [x] ++ l from fun _ _ => rfl]
  simp only [List.append_assoc]
  unfold decodeFields
  refine (reads_byte _ ok.version).bind <| (reads_nat 2 _ (by have := ok.numPartitions; omega)).bind <|
    (reads_take _ _ ok.active).bind <| (reads_take _ _ ok.passive).bind <| (reads_take _ _ ok.cleanup).bind <|
    (reads_partSeqs _ ok.seqs).bind <| (reads_root _).bind <| (reads_byte _ ok.views).bind <|
    (reads_roots h.views []).bind <| ?_
  have hrep : Reads (decNat 1) [if h.hasReplica then 1 else 0] (if h.hasReplica then 1 else 0) := by
    cases h.hasReplica
    · exact reads_byte 0 (by omega)
    · exact reads_byte 1 (by omega)
  refine hrep.bind <| (reads_partIds _ ok.replicas).bind <| (reads_partIds _ ok.pendingActive).bind <|
    (reads_partIds _ ok.pendingPassive).bind <| (reads_partIds _ ok.pendingUnindexable).bind <|
    (reads_partSeqs _ ok.unindexable).bind <| ?_
  have e : ((if h.hasReplica then 1 else 0 : Nat) != 0) = h.hasReplica := by cases h.hasReplica <;> rfl
  rw [e]
  by_cases hv : h.version ≥ 2
  · rw [if_pos hv, if_pos hv]
    exact (reads_partVersions _ ok.partVersions).map (k := fun v => _)
  · rw [if_neg hv, if_neg hv]
    have := (Reads.pure (α := List PartVersion) []).map (k := fun (v : List PartVersion) => { h.stored with partVersions := v })
    have e : h.stored = { h.stored with partVersions := [] } := by
      unfold IndexHeader.stored
      rw [← ok.old (by omega)]
    rw [e]
    exact this

/-! ### What can be read -/

/-- All that the decoder gives has the property. -/
def Gives {α : Type} (d : Dec α) (P : α → Prop) : Prop := ∀ b x rest, d b = .ok (x, rest) → P x

theorem Gives.bind {α β : Type} {d : Dec α} {k : α → Dec β} {P : α → Prop} {Q : β → Prop} (h : Gives d P)
    (h' : ∀ x, P x → Gives (k x) Q) : Gives (d >>= k) Q := by
  intro b y rest e
  change Except.bind (d b) (fun p => k p.1 p.2) = _ at e
  cases hd : d b with
  | error er => rw [hd] at e; cases e
  | ok p =>
    rw [hd] at e
    exact h' p.1 (h b p.1 p.2 hd) p.2 y rest e

theorem Gives.pure {α : Type} {x : α} {P : α → Prop} (h : P x) : Gives (pure x : Dec α) P := by
  intro b y rest e
  cases e
  exact h

theorem gives_take (n : Nat) : Gives (decTake n) fun b => b.length = n := by
  intro b x rest e
  unfold decTake at e
  split at e
  · cases e
  · cases e
    rw [List.length_take]; omega

theorem gives_nat (n : Nat) : Gives (decNat n) fun x => x < 256 ^ n :=
  (gives_take n).bind fun b hb => Gives.pure (by rw [← hb]; exact beDec_lt b)

theorem gives_list {α : Type} {d : Dec α} {add : List α → α → List α} {P : α → Prop} {I : List α → Prop}
    (hd : Gives d P) (hadd : ∀ l x, I l → P x → I (add l x) ∧ (add l x).length ≤ l.length + 1) :
    ∀ n l, I l → Gives (decList d add n l) fun r => I r ∧ r.length ≤ l.length + n
  | 0, l, h => Gives.pure ⟨h, by omega⟩
  | n + 1, l, h => by
    unfold decList
    refine hd.bind fun x hx => ?_
    intro b r rest e
    have h1 := hadd l x h hx
    have := gives_list hd hadd n _ h1.1 b r rest e
    exact ⟨this.1, by omega⟩

theorem gives_partIds : Gives decPartIds PartIdsOk := by
  unfold decPartIds
  refine (gives_nat 2).bind fun n hn => ?_
  have := gives_list (d := decNat 2) (add := sortedAdd partIdCmp) (P := fun x => x < 256 ^ 2)
    (I := fun l => l.Pairwise (· < ·) ∧ ∀ x ∈ l, x < 2 ^ 16) (gives_nat 2) (fun l x h hx => by
      refine ⟨⟨sortedAdd_sorted id partIdCmp_key x l h.1, fun y hy => ?_⟩, sortedAdd_length x l⟩
      rcases mem_sortedAdd x y l hy with rfl | hy
      · omega
      · exact h.2 y hy) n [] ⟨by simp, by simp⟩
  intro b r rest e
  have := this b r rest e
  exact ⟨this.1.1, by have := this.2; simp at this; omega, this.1.2⟩

theorem gives_partSeqs : Gives decPartSeqs PartSeqsOk := by
  unfold decPartSeqs
  refine (gives_nat 2).bind fun n hn => ?_
  have := gives_list (d := decPartSeq) (add := sortedAdd partSeqCmp) (P := fun x => x.1 < 2 ^ 16 ∧ x.2 < 2 ^ 48)
    (I := fun l => l.Pairwise (fun a b => a.1 < b.1) ∧ ∀ x ∈ l, x.1 < 2 ^ 16 ∧ x.2 < 2 ^ 48)
    ((gives_nat 2).bind fun p hp => (gives_nat 6).bind fun s hs => Gives.pure ⟨by omega, by omega⟩) (fun l x h hx => by
      refine ⟨⟨sortedAdd_sorted (fun x => x.1) (fun _ _ => rfl) x l h.1, fun y hy => ?_⟩, sortedAdd_length x l⟩
      rcases mem_sortedAdd x y l hy with rfl | hy
      · exact hx
      · exact h.2 y hy) n [] ⟨by simp, by simp⟩
  intro b r rest e
  have := this b r rest e
  refine ⟨⟨by rw [List.pairwise_map]; exact this.1.1, by have := this.2; simp at this ⊢; omega, ?_⟩, fun x hx => (this.1.2 x hx).2⟩
  intro x hx
  obtain ⟨y, hy, rfl⟩ := List.mem_map.mp hx
  exact (this.1.2 y hy).1

theorem gives_partVersion : Gives decPartVersion fun x => x.partId < 2 ^ 16 ∧ x.log.length < 2 ^ 16 ∧
    ∀ y ∈ x.log, y.1.length = 8 ∧ y.2 < 2 ^ 64 := by
  unfold decPartVersion
  refine (gives_nat 2).bind fun p hp => (gives_nat 2).bind fun n hn => ?_
  refine (gives_list (d := decLogEntry) (add := fun l x => l ++ [x]) (P := fun y => y.1.length = 8 ∧ y.2 < 2 ^ 64)
    (I := fun l => ∀ y ∈ l, y.1.length = 8 ∧ y.2 < 2 ^ 64) ((gives_take 8).bind fun u hu => (gives_nat 8).bind fun s hs =>
      Gives.pure ⟨hu, by omega⟩) (fun l x h hx => ⟨fun y hy => ?_, by simp⟩) n [] (by simp)).bind fun l hl => Gives.pure ?_
  · rw [List.mem_append, List.mem_singleton] at hy
    rcases hy with hy | rfl
    · exact h y hy
    · exact hx
  · have := hl.2
    simp at this
    exact ⟨by omega, by simp only; omega, hl.1⟩

theorem gives_partVersions : Gives decPartVersions PartVersionsOk := by
  unfold decPartVersions
  refine (gives_nat 2).bind fun n hn => ?_
  have := gives_list (d := decPartVersion) (add := sortedAdd partVersionCmp)
    (I := fun l => l.Pairwise (fun a b => a.partId < b.partId) ∧ ∀ x ∈ l, x.partId < 2 ^ 16 ∧ x.log.length < 2 ^ 16 ∧
      ∀ y ∈ x.log, y.1.length = 8 ∧ y.2 < 2 ^ 64)
    gives_partVersion (fun l x h hx => by
      refine ⟨⟨sortedAdd_sorted (fun x => x.partId) (fun _ _ => rfl) x l h.1, fun y hy => ?_⟩, sortedAdd_length x l⟩
      rcases mem_sortedAdd x y l hy with rfl | hy
      · exact hx
      · exact h.2 y hy) n [] ⟨by simp, by simp⟩
  intro b r rest e
  have := this b r rest e
  refine ⟨⟨by rw [List.pairwise_map]; exact this.1.1, by have := this.2; simp at this ⊢; omega, ?_⟩, fun x hx => (this.1.2 x hx).2⟩
  intro x hx
  obtain ⟨y, hy, rfl⟩ := List.mem_map.mp hx
  exact (this.1.2 y hy).1

theorem gives_root : Gives decRoot HeaderRootOk := by
  unfold decRoot
  refine (gives_nat 2).bind fun n hn => (gives_take n).bind fun b hb => Gives.pure ?_
  intro p hp
  unfold readRoot at hp
  split at hp
  · cases hp
  · cases hp
    have h1 := beDec_lt (slice b 0 6)
    have h2 := beDec_lt (slice b 6 6)
    rw [show (slice b 0 6).length = 6 by simp [slice]; omega] at h1
    rw [show (slice b 6 6).length = 6 by simp [slice]; omega] at h2
    exact ⟨rfl, by simpa using h1, by simpa using h2, by simp; omega⟩

theorem gives_fields (sig : Bytes) (hs : sig.length = 16) :
    Gives (decodeFields sig) fun h => h.Ok ∧ h.RootsOk ∧ h.signature = sig := by
  unfold decodeFields
  refine (gives_nat 1).bind fun version h1 => (gives_nat 2).bind fun np h2 => (gives_take _).bind fun active h3 =>
    (gives_take _).bind fun passive h4 => (gives_take _).bind fun cleanup h5 => gives_partSeqs.bind fun seqs h6 =>
    gives_root.bind fun idRoot h7 => (gives_nat 1).bind fun nv h8 =>
    (gives_list (I := fun l => ∀ r ∈ l, HeaderRootOk r) gives_root (fun l x h hx => ⟨fun y hy => ?_, by simp⟩) nv []
      (by simp)).bind fun views h9 => (gives_nat 1).bind fun rep h10 => gives_partIds.bind fun replicas h11 =>
    gives_partIds.bind fun pa h12 => gives_partIds.bind fun pp h13 => gives_partIds.bind fun pu h14 =>
    gives_partSeqs.bind fun un h15 => ?_
  · rw [List.mem_append, List.mem_singleton] at hy
    rcases hy with hy | rfl
    · exact h y hy
    · exact hx
  · have h9' := h9.2
    simp at h9'
    by_cases hv : version ≥ 2
    · rw [if_pos hv]
      refine gives_partVersions.bind fun pv h16 => Gives.pure
        ⟨⟨by simpa using h1, hs, by simp only; omega, h3, h4, h5, h6, by simp only; omega, h11, h12, h13, h14, h15, h16,
          fun h => absurd h (by simp only; omega)⟩, ⟨h7, h9.1⟩, rfl⟩
    · rw [if_neg hv]
      refine (Gives.pure (P := fun pv => pv = []) rfl).bind fun pv h16 => Gives.pure
        ⟨⟨by simpa using h1, hs, by simp only; omega, h3, h4, h5, h6, by simp only; omega, h11, h12, h13, h14, h15,
          by subst h16; exact ⟨⟨by simp, by simp, by simp⟩, by simp⟩, fun _ => h16⟩, ⟨h7, h9.1⟩, rfl⟩

theorem decodeIndexHeader_ok {E : Env} {b : Bytes} {h : IndexHeader} (e : decodeIndexHeader E b = .ok h) :
    h.Ok ∧ h.RootsOk ∧ h.signature = b.take 16 := by
  unfold decodeIndexHeader at e
  split at e
  · cases e
  · rename_i hl
    split at e
    · cases e
    · rename_i fields _
      cases hd : decodeFields (b.take 16) fields with
      | error er => rw [hd] at e; cases e
      | ok x =>
        rw [hd] at e
        cases e
        exact gives_fields _ (by rw [List.length_take]; omega) fields x.1 x.2 hd

/-- The decoder takes `n` bytes, or finds that they are not there. -/
def Takes {α : Type} (d : Dec α) (n : Nat) : Prop :=
  ∀ b : Bytes, (b.length < n → d b = .error .overrun) ∧ (n ≤ b.length → ∃ x, d b = .ok (x, b.drop n))

/-- The decoder runs beyond fewer than `n` bytes. -/
def Needs {α : Type} (d : Dec α) (n : Nat) : Prop := ∀ b : Bytes, b.length < n → d b = .error .overrun

theorem takes_take (n : Nat) : Takes (decTake n) n := fun b =>
  ⟨fun h => by unfold decTake; rw [if_pos h], fun h => ⟨b.take n, by unfold decTake; rw [if_neg (by omega)]⟩⟩

theorem Takes.needs {α β : Type} {d : Dec α} {k : α → Dec β} {n m : Nat} (h : Takes d n) (h' : ∀ x, Needs (k x) m) :
    Needs (d >>= k) (n + m) := by
  intro b hb
  show Except.bind (d b) (fun p => k p.1 p.2) = _
  by_cases hn : b.length < n
  · rw [(h b).1 hn]; rfl
  · obtain ⟨x, hx⟩ := (h b).2 (by omega)
    rw [hx]
    exact h' x _ (by rw [List.length_drop]; omega)

theorem takes_nat (n : Nat) : Takes (decNat n) n := fun b => by
  constructor
  · intro h
    show Except.bind (decTake n b) _ = _
    rw [(takes_take n b).1 h]; rfl
  · intro h
    obtain ⟨x, hx⟩ := (takes_take n b).2 h
    refine ⟨beDec x, ?_⟩
    show Except.bind (decTake n b) _ = _
    rw [hx]; rfl

/-! ### Roots -/

theorem storedRoot_some (p : NodePointer) (h : p.reduceValue.length + 12 < 2 ^ 16) :
    storedRoot (some p) = some { p with key := [], pointer := p.pointer % 2 ^ 48, subtreesize := p.subtreesize % 2 ^ 48 } := by
  unfold storedRoot
  have hl := encodeRoot_length p
  rw [Nat.mod_eq_of_lt (by omega), List.take_length]
  have e : encodeRoot (some p) =
      encodeRoot (some { p with pointer := p.pointer % 2 ^ 48, subtreesize := p.subtreesize % 2 ^ 48 }) := by
    have h1 := beEnc_mod 6 p.pointer 6 (Nat.le_refl _)
    have h2 := beEnc_mod 6 p.subtreesize 6 (Nat.le_refl _)
    rw [show (256 : Nat) ^ 6 = 2 ^ 48 by norm_num] at h1 h2
    unfold encodeRoot
    simp only [enc48]
    rw [h1, h2]
  rw [e, readRoot_encodeRoot _ (Nat.mod_lt _ (by norm_num)) (Nat.mod_lt _ (by norm_num))]

theorem storedRoot_ok {r : Option NodePointer} (h : HeaderRootOk r) : storedRoot r = r := by
  cases r with
  | none => rfl
  | some p =>
    obtain ⟨h1, h2, h3, h4⟩ := h p rfl
    rw [storedRoot_some p h4, Nat.mod_eq_of_lt h2, Nat.mod_eq_of_lt h3, ← h1]

/-- A root with a reduction of 65524 to 65535 bytes is lost. -/
theorem storedRoot_lost (p : NodePointer) (h1 : 2 ^ 16 ≤ p.reduceValue.length + 12) (h2 : p.reduceValue.length < 2 ^ 16) :
    storedRoot (some p) = none := by
  unfold storedRoot readRoot
  have hl := encodeRoot_length p
  rw [List.length_take, if_pos]
  omega

theorem stored_ok {h : IndexHeader} (ok : h.RootsOk) : h.stored = h := by
  unfold IndexHeader.stored
  rw [storedRoot_ok ok.1, show h.views.map storedRoot = h.views from by
    conv_rhs => rw [← List.map_id h.views]
    exact List.map_congr_left fun r hr => storedRoot_ok (ok.2 r hr)]

theorem storedRoot_at {E : Env} {X : Idx} {f : File} {r : Option NodePointer} {kvs : List KV} (h : RootAt E X f r kvs)
    (hpos : f.pos ≤ 2 ^ 48) (hr : ∀ p, r = some p → p.reduceValue.length + 12 < 2 ^ 16) :
    RootAt E X f (storedRoot r) kvs := by
  cases r with
  | none => exact h
  | some p =>
    have hp : p.pointer < f.pos := rootPtr_lt h p rfl
    rw [storedRoot_some p (hr p rfl), Nat.mod_eq_of_lt (by omega)]
    obtain ⟨l, cs, h1, h2, h3, h4, h5, h6, h7, h8⟩ := h
    exact ⟨l, cs, h1, h2, h3, h4, h5, h6, h7, by simpa using h8⟩

theorem decode_encode {E : Env} (L : E.Laws) (h : IndexHeader) (ok : h.Ok) (junk : Bytes)
    (hne : ∀ b, b ≠ [] → E.deflate b ≠ []) : decodeIndexHeader E (encodeIndexHeader E junk h) = .ok h.stored := by
  unfold decodeIndexHeader encodeIndexHeader
  have hs := ok.signature
  have : 0 < (E.deflate (encodeFields h ++ junk)).length :=
    List.length_pos_iff.mpr (hne _ (by unfold encodeFields; simp))
  rw [if_neg (by simp; omega), List.drop_left' hs, List.take_left' hs, L.inflate_deflate]
  simp only [reads_fields h ok junk]

/-! ### Headers in files -/

theorem readMarker_spec (pos : Nat) (f : File) (t : UInt8) (h : f.disk[pos]? = some t) :
    Sp (readMarker pos) f (fun r g => r = t ∧ RFrame f g) (FailR f) := by
  have := pread_spec pos 1 f
  unfold Sp at this ⊢
  unfold readMarker
  dsimp only
  cases e : pread pos 1 f with
  | error er g => rw [e] at this; exact this
  | ok b g =>
    rw [e] at this
    obtain ⟨hrf, k, hk, rfl, hf⟩ := this
    have hs : slice f.disk pos 1 = [t] := by
      have := List.getElem?_eq_some_iff.mp h
      obtain ⟨hlt, rfl⟩ := this
      unfold slice
      rw [List.drop_eq_getElem_cons hlt]
      rfl
    cases k with
    | zero => exact ⟨hrf, hf (by omega)⟩
    | succ k =>
      obtain rfl : k = 0 := by omega
      simp only [hs]
      exact ⟨trivial, hrf⟩

theorem readViewGroupHeader_spec {E : Env} {pos : Nat} {f : File} {h : IndexHeader} (hcrc : f.cfg.crcMode ≠ .unknown)
    (hh : ViewHeaderAt E f pos h) :
    Sp (readViewGroupHeader E pos) f (fun r g => r = h ∧ RFrame f g) (FailR f) := by
  obtain ⟨h1, b, q, hst, -, hlen, hd⟩ := hh
  unfold readViewGroupHeader
  apply Sp.bind' (readMarker_spec pos f 1 h1)
  · rintro t g ⟨rfl, hg⟩
    rw [if_neg (by decide), if_neg (by decide)]
    apply Sp.bind' (preadHeader_spec E pos q maxViewHeaderSize b g (by rw [hg.cfg]; exact hcrc) hlen
      (by unfold maxViewHeaderSize at hlen; omega) (by rw [hg.disk, hg.cfg]; exact hst))
    · rintro _ g' ⟨rfl, hg'⟩
      rw [hd]
      exact ⟨rfl, hg.trans hg'⟩
    · rintro e g' ⟨h1, h2⟩; exact ⟨hg.trans h1, hg.faults_ne h2⟩
  · exact fun _ _ h => h

theorem ViewHeaderAt.frame {E : Env} {f g : File} {pos : Nat} {h : IndexHeader} (hh : ViewHeaderAt E f pos h)
    (hd : ∀ i, i < f.disk.length → g.disk[i]? = f.disk[i]?) (hl : f.disk.length ≤ g.disk.length) (hc : g.cfg = f.cfg) :
    ViewHeaderAt E g pos h := by
  obtain ⟨h1, b, q, hst, hq, hlen, hdec⟩ := hh
  refine ⟨by rw [hd pos (List.getElem?_eq_some_iff.mp h1).1, h1], b, q, ?_, by omega, hlen, hdec⟩
  rw [hc]
  exact hst.congr fun i _ hi => hd i (by omega)

theorem writeViewGroupHeader_spec {E : Env} {junk : Bytes} {h h' : IndexHeader} (f : File) (w : f.WF)
    (hd : decodeIndexHeader E (encodeIndexHeader E junk h) = .ok h') :
    Sp (writeViewGroupHeader E junk h) f
      (fun p g => p = alignToNextBlock f.pos ∧ Frame btHeader f.pos f g ∧ g.WF ∧ f.pos ≤ g.pos ∧ p < g.pos ∧
        ((encodeIndexHeader E junk h).length + 4 ≤ maxViewHeaderSize → ViewHeaderAt E g p h'))
      (fun e g => Frame btHeader f.pos f g ∧ g.pos = f.pos ∧ g.WF ∧ (f.faults ≠ [] ∨ e = .formatLimit)) := by
  unfold writeViewGroupHeader
  have ha := alignToNextBlock_ge f.pos
  refine (writeHeader_spec E btHeader (encodeIndexHeader E junk h) f w).mono ?_ ?_
  · rintro p g ⟨rfl, h1, h2, h3, h4, h5, h6⟩
    refine ⟨rfl, h1.mono ha, h3, by omega, h2, fun hlen => ⟨h4, _, g.pos, ?_, h3.pos_le, hlen, hd⟩⟩
    rw [h1.cfg]; exact h5
  · rintro e g ⟨h1, h2, h3⟩
    refine ⟨h1.mono ha, h2, ⟨by have := h1.len; have := w.pos_le; omega, by rw [h1.cfg]; exact w.crc⟩, h3⟩

/-! ### Groups -/

theorem keep_atEnd {f : File} (w : f.WF) : Keep f f.atEnd := ⟨fun _ _ _ => rfl, rfl, rfl, w.pos_le⟩

/-- What was in the file is still there. -/
structure FileGrown (f g : File) : Prop where
  agree : ∀ i, i < f.disk.length → g.disk[i]? = f.disk[i]?
  len : f.disk.length ≤ g.disk.length
  cfg : g.cfg = f.cfg

theorem FileGrown.trans {f g h : File} (a : FileGrown f g) (b : FileGrown g h) : FileGrown f h :=
  ⟨fun i hi => (b.agree i (Nat.lt_of_lt_of_le hi a.len)).trans (a.agree i hi), a.len.trans b.len, b.cfg.trans a.cfg⟩

theorem FileGrown.of_atEnd {f g : File} (h : FileGrown f.atEnd g) : FileGrown f g := ⟨h.agree, h.len, h.cfg⟩

theorem Frame.grown {f g : File} {t : UInt8} {lo : Nat} (h : Frame t lo f g) (hl : f.disk.length ≤ lo) : FileGrown f g :=
  ⟨fun i hi => h.agree i (by omega) hi, h.len, h.cfg⟩

theorem RFrame.grown {f g : File} (h : RFrame f g) : FileGrown f g := (h.frame btData f.disk.length).grown (Nat.le_refl _)

theorem FileGrown.keep {f g : File} (h : FileGrown f g) : Keep f.atEnd g.atEnd :=
  ⟨fun i hi _ => h.agree i hi, by show g.cfg.cipher = _; rw [h.cfg]; rfl, by show g.cfg.crcMode = _; rw [h.cfg]; rfl, h.len⟩

theorem View.At.keep {E : Env} {f g : File} (k : Keep f g) {v : View} {r : Option NodePointer} (h : v.At E f r) : v.At E g r :=
  ⟨h.1.keep k, h.2⟩

theorem GroupAt.grown {E : Env} {kmax : Nat} {f g : File} {pos : Nat} {h : IndexHeader} {ids : List KV} {views : List View}
    (hg : GroupAt E kmax f pos h ids views) (hf : FileGrown f g) : GroupAt E kmax g pos h ids views :=
  ⟨hg.header.frame hf.agree hf.len hf.cfg, hg.ids.keep hf.keep, hg.views.imp fun _ _ h => h.keep hf.keep⟩

theorem GroupAt.rframe {E : Env} {kmax : Nat} {f g : File} {pos : Nat} {h : IndexHeader} {ids : List KV} {views : List View}
    (hg : GroupAt E kmax f pos h ids views) (hf : RFrame f g) : GroupAt E kmax g pos h ids views :=
  hg.grown hf.grown

theorem viewId_reduction {E : Env} {kmax : Nat} {f : File} {r : Option NodePointer} {ids : List KV}
    (h : RootAt E (viewIdIdx kmax) f r ids) : ∀ p, r = some p → p.reduceValue.length + 12 < 2 ^ 16 := by
  rintro p rfl
  obtain ⟨l, cs, -, -, -, -, h5, -⟩ := h
  have := h5.1
  omega

theorem view_reduction {E : Env} {f : File} {v : View} {r : Option NodePointer} (h : v.At E f r)
    (hv : reductionMax v.specs + 12 < 2 ^ 16) : ∀ p, r = some p → p.reduceValue.length + 12 < 2 ^ 16 := by
  rintro p rfl
  obtain ⟨⟨l, cs, -, -, -, -, h5, -⟩, -⟩ := h
  have := h5.1
  omega

theorem buildViews_spec {D : Type} [LinearOrder D] (E : Env) (e : CollateEnv D) (round : Rat → D)
    (ucol : Bytes → Bytes → Int) (H : e.Ok round ucol) (a b : Nat) (ha : 2 ≤ a) :
    ∀ (views : List View), (∀ v ∈ views, v.Ok e ∧ (∀ m ∈ v.emits, v.keys m.kv.1) ∧ ∀ m ∈ v.emits, m.Fits v.specs) →
      ∀ (f : File), f.WF →
      Sp (buildViews E e a b (views.map fun v => (v.reducers, v.emits.map Emit.kv))) f
        (fun roots g => Ext f g ∧ List.Forall₂ (fun (v : View) r => v.At E g r) views roots) (FailT f)
  | [], _, f, _ => ⟨Ext.refl _, .nil⟩
  | v :: views, hv, f, w => by
    obtain ⟨⟨h1, h2, h3⟩, hk, hm⟩ := hv v (by simp)
    rw [List.map_cons]
    unfold buildViews
    apply Sp.bind' (buildBtree_spec E (viewRq_ok e round ucol H _ h1 h2 h3 (a + a / 3) (b + b / 3) emptyBitmap
      (by omega)) (v.emits.map Emit.kv) (by
        intro kv hkv
        obtain ⟨m, hm', rfl⟩ := List.mem_map.mp hkv
        exact ⟨hk m hm', m, hm m hm', rfl⟩) f w)
    · rintro r g ⟨k1, k2⟩
      apply Sp.bind' (buildViews_spec E e round ucol H a b ha views (fun v hv' => hv v (by simp [hv'])) g (k1.wf' w))
      · rintro out g' ⟨k3, k4⟩
        exact ⟨k1.trans k3, .cons ⟨k2.keep (k3.keep (k1.wf' w)), hm⟩ k4⟩
      · exact fun _ _ h => FailT.trans k1 h
    · exact fun _ _ h => h

/-- The header of a group with other roots. -/
theorem writeGroup_spec {E : Env} (L : E.Laws) (hne : ∀ b, b ≠ [] → E.deflate b ≠ []) {junk : Bytes} {h : IndexHeader}
    (ok : h.Ok) {kmax : Nat} {ids : List KV} {views : List View} (f : File) (w : f.WF)
    (hi : RootAt E (viewIdIdx kmax) f h.idRoot ids) (hv : List.Forall₂ (fun (v : View) r => v.At E f r) views h.views)
    (hmax : ∀ v ∈ views, reductionMax v.specs + 12 < 2 ^ 16) :
    Sp (writeViewGroupHeader E junk h) f
      (fun p g => Frame btHeader f.pos f g ∧ g.WF ∧ f.pos ≤ g.pos ∧ f.pos ≤ p ∧ (g.disk.length ≤ 2 ^ 48 →
        (encodeIndexHeader E junk h).length + 4 ≤ maxViewHeaderSize → GroupAt E kmax g p h.stored ids views))
      (fun e g => Frame btHeader f.pos f g ∧ g.WF ∧ (f.faults ≠ [] ∨ e = .formatLimit)) := by
  refine (writeViewGroupHeader_spec f w (decode_encode L h ok junk hne)).mono ?_ ?_
  · rintro p g ⟨rfl, h1, h2, h3, h4, h5⟩
    have k : Keep f g.atEnd := ⟨fun i hi _ => h1.agree i hi (by have := w.pos_le; omega), by show g.cfg.cipher = _; rw [h1.cfg],
      by show g.cfg.crcMode = _; rw [h1.cfg], by have := h2.pos_le; show f.pos ≤ g.disk.length; omega⟩
    refine ⟨h1, h2, h3, alignToNextBlock_ge _, fun hg hlen => ?_⟩
    have hsize : f.pos ≤ 2 ^ 48 := by have := h2.pos_le; omega
    refine ⟨h5 hlen, (storedRoot_at hi hsize (viewId_reduction hi)).keep k, ?_⟩
    show List.Forall₂ _ views (h.views.map storedRoot)
    rw [List.forall₂_map_right_iff]
    have : List.Forall₂ (fun (v : View) r => v ∈ views ∧ v.At E f r) views h.views := by
      rw [List.forall₂_iff_get] at hv ⊢
      exact ⟨hv.1, fun i h1 h2 => ⟨List.get_mem _ _, hv.2 i h1 h2⟩⟩
    refine this.imp ?_
    rintro v r ⟨hvm, hr⟩
    exact View.At.keep k ⟨storedRoot_at hr.1 hsize (view_reduction hr (hmax v hvm)), hr.2⟩
  · rintro e g ⟨h1, h2, h3, h4⟩
    exact ⟨h1, h3, h4⟩

/-- The old file of a build is not touched; the new file has the group. -/
theorem buildViewGroup_spec {D : Type} [LinearOrder D] (E : Env) (L : E.Laws) (hne : ∀ b, b ≠ [] → E.deflate b ≠ [])
    (e : CollateEnv D) (round : Rat → D) (ucol : Bytes → Bytes → Int) (H : e.Ok round ucol) (a b : Nat) (ha : 2 ≤ a)
    (junk : Bytes) (old : File) (hcrc : old.cfg.crcMode ≠ .unknown) (pos : Nat) (h : IndexHeader)
    (hh : ViewHeaderAt E old pos h) {kmax : Nat} (hmax : kmax < 4096) (ids : List KV)
    (hi : ∀ kv ∈ ids, (viewIdIdx kmax).V kv) (views : List View) (hn : views.length = h.views.length)
    (hv : ∀ v ∈ views, v.Ok e ∧ (∀ m ∈ v.emits, v.keys m.kv.1) ∧ ∀ m ∈ v.emits, m.Fits v.specs)
    (hred : ∀ v ∈ views, reductionMax v.specs + 12 < 2 ^ 16) (f : File) (w : f.WF) :
    Sp (buildViewGroup E e a b junk old pos ids (views.map fun v => (v.reducers, v.emits.map Emit.kv))) f
      (fun p g => g.WF ∧ ∃ idRoot roots, roots.length = h.views.length ∧ (g.disk.length ≤ 2 ^ 48 →
        (encodeIndexHeader E junk { h with idRoot := idRoot, views := roots }).length + 4 ≤ maxViewHeaderSize →
        GroupAt E kmax g p { h with idRoot := storedRoot idRoot, views := roots.map storedRoot } ids views))
      (fun er _ => old.faults ≠ [] ∨ f.faults ≠ [] ∨ er = .formatLimit) := by
  have hread := readViewGroupHeader_spec hcrc hh
  have hok : h.Ok := by
    obtain ⟨-, b, q, -, -, -, hd⟩ := hh
    exact (decodeIndexHeader_ok hd).1
  unfold buildViewGroup
  cases hr : readViewGroupHeader E pos old with
  | error er g => exact Or.inl (hread.error hr).2
  | ok h' g =>
    obtain rfl := (hread.ok hr).1
    simp only
    rw [if_neg (by simp [hn])]
    apply Sp.bind' (buildBtree_spec E (viewIdRq_ok hmax (a + a / 3) (b + b / 3) emptyBitmap (by omega)) ids hi f w)
    · rintro idRoot f1 ⟨k1, k2⟩
      have w1 := k1.wf' w
      apply Sp.bind' (buildViews_spec E e round ucol H a b ha views hv f1 w1)
      · rintro roots f2 ⟨k3, k4⟩
        have w2 := k3.wf' w1
        have hl : roots.length = h'.views.length := by rw [← hn, k4.length_eq]
        have ok2 : IndexHeader.Ok { h' with idRoot := idRoot, views := roots } :=
          { hok with views := by show roots.length < 256; rw [hl]; exact hok.views }
        refine (writeGroup_spec L hne ok2 f2 w2 (k2.keep (k3.keep w1)) k4 hred).mono ?_ ?_
        · rintro p g' ⟨h1, h2, h3, h4, h5⟩
          exact ⟨h2, idRoot, roots, hl, h5⟩
        · rintro er g' ⟨h1, h2, h3⟩
          rcases h3 with h3 | h3
          · exact Or.inr (Or.inl ((k1.trans k3).faults_ne h3))
          · exact Or.inr (Or.inr h3)
      · rintro er g' ⟨h1, h2⟩
        rcases h2 with h2 | h2
        · exact Or.inr (Or.inl (k1.faults_ne h2))
        · exact Or.inr (Or.inr h2)
    · rintro er g' ⟨h1, h2⟩
      exact Or.inr h2

/-- What a cleanup of a group leaves. -/
structure CleanedGroup (E : Env) (q : Prop) (kmax : Nat) (g : File) (h : IndexHeader) (ids : List KV) (views : List View)
    (junk : Bytes) (p n : Nat) : Prop where
  ex : ∃ idRoot roots left kept, roots.length = h.views.length ∧
    left <:+ keptIds h.cleanup ids ∧ (q → left = keptIds h.cleanup ids) ∧
    List.Forall₂ (fun (v : View) (v' : View) => ∃ ms, ms <:+ keptEmits h.cleanup v.emits ∧
      (q → ms = keptEmits h.cleanup v.emits) ∧ v' = v.having ms) views kept ∧
    (g.disk.length ≤ 2 ^ 48 →
      (encodeIndexHeader E junk { h with idRoot := idRoot, views := roots, cleanup := emptyBitmap }).length + 4 ≤
        maxViewHeaderSize →
      GroupAt E kmax g p { h with idRoot := storedRoot idRoot, views := roots.map storedRoot, cleanup := emptyBitmap }
        left kept)
  count : ids.length < 2 ^ 40 → (∀ v ∈ views, valueCount v.emits < 2 ^ 40) →
    goneIds h.cleanup ids + (views.map fun v => goneValues h.cleanup v.emits).sum < 2 ^ 64 →
    n = goneIds h.cleanup ids + (views.map fun v => goneValues h.cleanup v.emits).sum

theorem zip_reducers : ∀ {views : List View} {roots : List (Option NodePointer)},
    (views.map View.reducers).zip roots = (views.zip roots).map fun x => (x.1.reducers, x.2)
  | [], _ => rfl
  | _ :: _, [] => rfl
  | v :: views, r :: roots => by
    rw [List.map_cons, List.zip_cons_cons, List.zip_cons_cons, List.map_cons, zip_reducers]

theorem forall₂_zip {α β : Type} {R : α → β → Prop} {l : List α} {m : List β} (h : List.Forall₂ R l m) :
    ∀ x ∈ l.zip m, R x.1 x.2 := by
  induction h with
  | nil => simp
  | cons h1 _ ih =>
    intro x hx
    rw [List.zip_cons_cons, List.mem_cons] at hx
    rcases hx with rfl | hx
    · exact h1
    · exact ih x hx

theorem map_zip_fst {α β γ : Type} {F : α → γ} {l : List α} {m : List β} (h : l.length = m.length) :
    (l.zip m).map (fun x => F x.1) = l.map F := by
  have : (l.zip m).map (fun x => F x.1) = ((l.zip m).map Prod.fst).map F := by rw [List.map_map]; rfl
  rw [this, List.map_fst_zip (by omega)]

/-- The indexes that are left. -/
theorem cleaned_views {E : Env} {q : Prop} {cleanup : Bytes} {g : File} :
    ∀ {views : List View} {roots out : List (Option NodePointer)}, views.length = roots.length →
      List.Forall₂ (CleanedView E q cleanup g) (views.zip roots) out →
      ∃ kept, List.Forall₂ (fun (v : View) (v' : View) => ∃ ms, ms <:+ keptEmits cleanup v.emits ∧
        (q → ms = keptEmits cleanup v.emits) ∧ v' = v.having ms) views kept ∧
        List.Forall₂ (fun (v : View) r => v.At E g r) kept out
  | [], _, out, _, h => by
    cases h
    exact ⟨[], .nil, .nil⟩
  | v :: views, [], _, hl, _ => by cases hl
  | v :: views, r :: roots, out, hl, h => by
    rw [List.zip_cons_cons] at h
    cases h with
    | cons h1 h2 =>
      obtain ⟨kept, k1, k2⟩ := cleaned_views (by simpa using hl) h2
      obtain ⟨-, ms, m1, m2, m3⟩ := h1
      exact ⟨v.having ms :: kept, .cons ⟨ms, m1, m3, rfl⟩ k1, .cons m2 k2⟩

theorem rootRoomy_later {E : Env} (L : E.Laws) {X : Idx} {f g : File} (w : f.WF) (w' : g.WF) (k : Keep f g)
    (hV : ∀ kv, X.V kv → kv.1.length < 4096) {a b M : Nat} {root : Option NodePointer} {kvs : List KV}
    (hr : RootAt E X f root kvs) (h : rootRoomy E f a b M root = true) : rootRoomy E g a b M root = true := by
  cases root with
  | none => rfl
  | some p =>
    obtain ⟨l0, h0⟩ := hr
    have e1 := treeHeight_spec L w' hV (h0.keep k) (show l0 < p.pointer + 1 by have := h0.height; omega)
    simp only [rootRoomy, e1]
    exact rootRoomy_keep L w w' k hV (root := some p) (kvs := kvs) ⟨l0, h0⟩ h p l0 rfl (h0.keep k)

theorem viewKey_lt {D : Type} [LinearOrder D] (e : CollateEnv D) (round : Rat → D) (ucol : Bytes → Bytes → Int)
    (H : e.Ok round ucol) {v : View} (hv : v.Ok e) (kv : KV) (h : (viewIdx v.keys v.specs).V kv) : kv.1.length < 4096 := by
  obtain ⟨h1, h2, h3⟩ := hv
  exact ((viewRq_ok e round ucol H _ h1 h2 h3 2 2 emptyBitmap (by omega)).entry kv h).2.1

theorem forall₂_mem_right {α β : Type} {R : α → β → Prop} {l : List α} {m : List β} (h : List.Forall₂ R l m) {y : β}
    (hy : y ∈ m) : ∃ x ∈ l, R x y := by
  induction h with
  | nil => simp at hy
  | cons h1 _ ih =>
    rw [List.mem_cons] at hy
    rcases hy with rfl | hy
    · exact ⟨_, by simp, h1⟩
    · obtain ⟨x, hx, hr⟩ := ih hy
      exact ⟨x, by simp [hx], hr⟩

theorem cleanupViewGroup_spec {D : Type} [LinearOrder D] (E : Env) (L : E.Laws) (hne : ∀ b, b ≠ [] → E.deflate b ≠ [])
    (e : CollateEnv D) (round : Rat → D) (ucol : Bytes → Bytes → Int) (H : e.Ok round ucol) (a b : Nat) (ha : 2 ≤ a)
    (junk : Bytes) (q : Prop) (f : File) (hcrc : f.cfg.crcMode ≠ .unknown) (pos : Nat) (h : IndexHeader) {kmax : Nat}
    (hmax : kmax < 4096) (ids : List KV) (views : List View) (hg : GroupAt E kmax f pos h ids views)
    (hv : ∀ v ∈ views, v.Ok e ∧ reductionMax v.specs + 12 < 2 ^ 16)
    (hq : q → rootRoomy E f.atEnd a b (kmax + 133 + 19) h.idRoot = true)
    (hq' : q → ∀ x ∈ views.zip h.views, ∃ kmax, (∀ k, x.1.keys k → k.length ≤ kmax) ∧
      rootRoomy E f.atEnd a b (kmax + reductionMax x.1.specs + 19) x.2 = true) :
    Sp (cleanupViewGroup E e a b junk pos (views.map View.reducers)) f
      (fun r g => GroupAt E kmax g pos h ids views ∧ CleanedGroup E q kmax g h ids views junk r.1 r.2)
      (fun er g => GroupAt E kmax g pos h ids views ∧ (f.faults ≠ [] ∨ er = .formatLimit)) := by
  have hok : h.Ok := by
    obtain ⟨-, b, q, -, -, -, hd⟩ := hg.header
    exact (decodeIndexHeader_ok hd).1
  have hn : views.length = h.views.length := hg.views.length_eq
  unfold cleanupViewGroup
  apply Sp.bind' (readViewGroupHeader_spec hcrc hg.header)
  · rintro _ f1 ⟨rfl, k1⟩
    rename_i h
    rw [if_neg (by simp [hn])]
    apply Sp.bind' (gotoEof_spec f1)
    · rintro _ f2 ⟨rfl, k2⟩
      apply Sp.bind' (Q1 := fun _ g => g = f2.atEnd) (R1 := fun _ _ => False)
      · show _ = _
        rw [← k2.disk]
        rfl
      · rintro _ f3 rfl
        have k12 := k1.trans k2
        have g2 := hg.rframe k12
        have w0 : f.atEnd.WF := ⟨Nat.le_refl _, hcrc⟩
        have w2 : f2.atEnd.WF := ⟨Nat.le_refl _, by show f2.cfg.crcMode ≠ _; rw [k12.cfg]; exact hcrc⟩
        have kk : Keep f.atEnd f2.atEnd := k12.grown.keep
        rw [zip_reducers]
        have hz := forall₂_zip g2.views
        have hz0 := forall₂_zip hg.views
        apply Sp.bind' (cleanupGroup_spec E L e round ucol H a b ha hok.cleanup hmax q f2.atEnd w2 h.idRoot ids g2.ids
          (views.zip h.views) (fun x hx => ⟨(hv x.1 (List.of_mem_zip hx).1).1, hz x hx⟩)
          (fun h => rootRoomy_later L w0 w2 kk (fun kv h => by have := h.1; omega) hg.ids (hq h))
          (fun h x hx => by
            obtain ⟨km, h1, h2⟩ := hq' h x hx
            exact ⟨km, h1, rootRoomy_later L w0 w2 kk (fun kv h => (viewKey_lt e round ucol H (hv x.1 (List.of_mem_zip hx).1).1 kv h)) (hz0 x hx).1 h2⟩))
        · rintro ⟨n, idRoot, roots, bm⟩ f3 ⟨x1, x2⟩
          obtain ⟨left, l1, l2, l3⟩ := x2.ids
          obtain ⟨kept, c1, c2⟩ := cleaned_views hn x2.views
          have hbm : bm = emptyBitmap := x2.mask
          subst hbm
          have w3 := x1.wf' w2
          have hl : roots.length = h.views.length := by
            rw [← hn, ← c2.length_eq, c1.length_eq]
          have ok2 : IndexHeader.Ok { h with idRoot := idRoot, views := roots, cleanup := emptyBitmap } :=
            { hok with views := by show roots.length < 256; rw [hl]; exact hok.views
                       cleanup := by simp [emptyBitmap] }
          have hred : ∀ v ∈ kept, reductionMax v.specs + 12 < 2 ^ 16 := by
            intro v' hv'
            obtain ⟨v, hvm, ms, -, -, rfl⟩ := forall₂_mem_right c1 hv'
            exact (hv v hvm).2
          have gr3 : FileGrown f2 f3 := (x1.frame.grown (Nat.le_refl _)).of_atEnd
          have hgr : ∀ {g}, Frame btHeader f3.pos f3 g → FileGrown f2 g := fun y1 =>
            ⟨fun i hi => (y1.agree i (Nat.lt_of_lt_of_le hi x1.pos) (Nat.lt_of_lt_of_le hi gr3.len)).trans (gr3.agree i hi),
              gr3.len.trans y1.len, y1.cfg.trans gr3.cfg⟩
          apply Sp.bind' (writeGroup_spec (junk := junk) L hne ok2 f3 w3 l2 c2 hred)
          · rintro p g ⟨y1, y2, y3, y4, y5⟩
            refine ⟨g2.grown (hgr y1), ⟨⟨idRoot, roots, left, kept, hl, l1, l3, c1, y5⟩, fun h1 h2 h3 => ?_⟩⟩
            have := x2.count h1 (fun x hx => h2 x.1 (List.of_mem_zip hx).1)
            unfold goneTotal at this
            rw [map_zip_fst (F := fun v => goneValues h.cleanup v.emits) hn] at this
            exact this h3
          · rintro er g ⟨y1, y2, y3⟩
            refine ⟨g2.grown (hgr y1), ?_⟩
            rcases y3 with y3 | y3
            · exact Or.inl (k12.faults_ne (x1.faults_ne y3))
            · exact Or.inr y3
        · rintro er g ⟨h1, h2⟩
          refine ⟨g2.grown (h1.frame.grown (Nat.le_refl _)).of_atEnd, ?_⟩
          rcases h2 with h2 | h2
          · exact Or.inl (k12.faults_ne h2)
          · exact Or.inr h2
      · exact fun _ _ h => h.elim
    · rintro er g ⟨h1, h2⟩
      exact ⟨hg.rframe (k1.trans h1), Or.inl (k1.faults_ne h2)⟩
  · rintro er g ⟨h1, h2⟩
    exact ⟨hg.rframe h1, Or.inl h2⟩

end Couchstore
