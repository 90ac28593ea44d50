import Mathlib.Data.List.Nodup
import Verif.Lemmas.ViewUpdate2
import Verif.Lemmas.FileMerger
import Verif.Lemmas.Order
import Verif.Model.ViewMerge
import Verif.Spec.Merge
import Verif.Spec.ViewUpdate
import Verif.Spec.ViewCodec

/-! Merging of files with records of a view. -/

namespace Couchstore

/-! ### The merger does not look into records -/

section
variable {α β : Type} (f : α → β)

def liftRec (x : α × Nat) : β × Nat := (f x.1, x.2)

def liftSrc (s : Source α) : Source β := ⟨s.recs.map f, s.fail⟩

def liftState (s : MergerState α) : MergerState β :=
  ⟨s.files.map (Option.map (liftSrc f)), s.vec.map (liftRec f), s.fed.map f, s.written.map f⟩

variable {f} {cmp : α → α → Int} {cmp' : β → β → Int} (hc : ∀ a b, cmp' (f a) (f b) = cmp a b)
include hc

theorem lift_searchPlace (v : List (α × Nat)) (x : α) (l r : Nat) :
    searchPlace cmp' (v.map (liftRec f)) (f x) l r = searchPlace cmp v x l r := by
  induction l, r using searchPlace.induct cmp v x with
  | case1 l r h hn =>
    rw [searchPlace, if_pos h, List.getElem?_map, hn]
    conv => rhs; rw [searchPlace, if_pos h, hn]
    rfl
  | case2 l r h y hy hlt ih =>
    rw [searchPlace, if_pos h, List.getElem?_map, hy]
    conv => rhs; rw [searchPlace, if_pos h, hy]
    simp only [Option.map_some, liftRec, hc, if_pos hlt]
    exact ih
  | case3 l r h y hy hlt ih =>
    rw [searchPlace, if_pos h, List.getElem?_map, hy]
    conv => rhs; rw [searchPlace, if_pos h, hy]
    simp only [Option.map_some, liftRec, hc, if_neg hlt]
    exact ih
  | case4 l r h =>
    rw [searchPlace, if_neg h, searchPlace, if_neg h]

theorem lift_placeOf (v : List (α × Nat)) (x : α) : placeOf cmp' (v.map (liftRec f)) (f x) = placeOf cmp v x := by
  unfold placeOf
  rw [List.length_map, lift_searchPlace hc, List.head?_map]
  cases v.head? <;> simp [liftRec, hc]

theorem lift_add (cap : Nat) (v : List (α × Nat)) (x : α × Nat) :
    sortedVectorAdd cmp' cap (v.map (liftRec f)) (liftRec f x) = (sortedVectorAdd cmp cap v x).map (List.map (liftRec f)) := by
  unfold sortedVectorAdd
  rw [List.length_map]
  split
  · rfl
  · have : placeOf cmp' (v.map (liftRec f)) (liftRec f x).1 = placeOf cmp v x.1 := lift_placeOf hc v x.1
    simp only [this, Option.map_some, List.map_append, List.map_cons, List.map_take, List.map_drop]

variable {d : List (α × Nat) → Nat} {d' : List (β × Nat) → Nat} (hd : ∀ g, d' (g.map (liftRec f)) = d g)
  {w : Nat → α → Int} {w' : Nat → β → Int} (hw : ∀ n x, w' n (f x) = w n x)

theorem lift_refill (s : MergerState α) (i : Nat) :
    refill ⟨cmp', some d', none, some w'⟩ (liftState f s) i =
      (refill ⟨cmp, some d, none, some w⟩ s i).map (liftState f) := by
  unfold refill liftState
  simp only [List.getElem?_map, List.length_map]
  cases s.files[i]? with
  | none => rfl
  | some o =>
    cases o with
    | none => rfl
    | some src =>
      obtain ⟨recs, fail⟩ := src
      cases recs with
      | nil => cases fail <;> simp [liftSrc, Except.map, List.map_set]
      | cons x rest =>
        have := lift_add hc s.files.length s.vec (x, i)
        simp only [liftRec] at this
        simp only [Option.map_some, liftSrc, List.map_cons]
        rw [this]
        cases sortedVectorAdd cmp s.files.length s.vec (x, i) with
        | none => rfl
        | some v => simp [Except.map, List.map_set, liftSrc]

theorem lift_refillAll (is : List Nat) : ∀ s : MergerState α,
    refillAll ⟨cmp', some d', none, some w'⟩ (liftState f s) is =
      (refillAll ⟨cmp, some d, none, some w⟩ s is).map (liftState f) := by
  induction is with
  | nil => intro s; rfl
  | cons i is ih =>
    intro s
    rw [refillAll, refillAll, lift_refill hc (d := d) (w := w)]
    cases refill ⟨cmp, some d, none, some w⟩ s i with
    | error e => rfl
    | ok s' => exact ih s'

theorem lift_dupCount (head : α × Nat) (rest : List (α × Nat)) :
    dupCount ⟨cmp', some d', none, some w'⟩ (liftRec f head) (rest.map (liftRec f)) =
      dupCount ⟨cmp, some d, none, some w⟩ head rest := by
  unfold dupCount
  dsimp only
  rw [List.takeWhile_map, List.length_map]
  congr 3
  funext y
  simp [liftRec, hc]

include hd

omit hc in
theorem lift_winnerFirst (g : List (α × Nat)) :
    winnerFirst ⟨cmp', some d', none, some w'⟩ (g.map (liftRec f)) =
      (winnerFirst ⟨cmp, some d, none, some w⟩ g).map (List.map (liftRec f)) := by
  unfold winnerFirst
  dsimp only
  rw [List.length_map, hd]
  split
  · rw [List.getElem?_map, List.getElem?_map]
    cases g[0]? with
    | none => rfl
    | some a =>
      cases g[d g]? with
      | none => rfl
      | some b => simp [List.map_set]
  · rfl

include hw

theorem lift_loop (fuel : Nat) : ∀ s : MergerState α,
    mergerLoop ⟨cmp', some d', none, some w'⟩ fuel (liftState f s) =
      ((mergerLoop ⟨cmp, some d, none, some w⟩ fuel s).1, liftState f (mergerLoop ⟨cmp, some d, none, some w⟩ fuel s).2) := by
  induction fuel with
  | zero => intro s; rfl
  | succ fuel ih =>
    intro s
    rw [mergerLoop, mergerLoop]
    obtain ⟨files, vec, fed, written⟩ := s
    cases vec with
    | nil => rfl
    | cons head rest =>
      simp only [liftState, List.map_cons]
      rw [lift_dupCount hc (d := d) (w := w), ← List.map_cons, ← List.map_take, lift_winnerFirst (cmp := cmp) hd (w := w)]
      cases winnerFirst ⟨cmp, some d, none, some w⟩ ((head :: rest).take (dupCount ⟨cmp, some d, none, some w⟩ head rest)) with
      | none => rfl
      | some g =>
        cases g with
        | nil => rfl
        | cons x g =>
          simp only [Option.map_some, List.map_cons, putRecord, liftRec, hw, List.length_map]
          by_cases hz : w written.length x.1 = 0
          · rw [if_pos hz, if_pos hz]
            dsimp only
            have h1 := lift_refillAll hc (d := d) (d' := d') (w := w) (w' := w') (x.2 :: g.map (·.2))
              ⟨files, (head :: rest).drop (dupCount ⟨cmp, some d, none, some w⟩ head rest), fed, written ++ [x.1]⟩
            simp only [liftState, List.map_drop, List.map_append, List.map_cons, List.map_nil] at h1
            have e : (List.map (fun x : β × Nat => x.2) (List.map (liftRec f) g)) = g.map (·.2) := by
              rw [List.map_map]; rfl
            rw [show liftRec f head = (f head.1, head.2) from rfl] at h1
            rw [e, h1]
            cases refillAll ⟨cmp, some d, none, some w⟩
              ⟨files, (head :: rest).drop (dupCount ⟨cmp, some d, none, some w⟩ head rest), fed, written ++ [x.1]⟩
              (x.2 :: g.map (·.2)) with
            | error e =>
              simp only [Except.map, List.map_drop, List.map_cons, List.map_append, List.map_nil]
              rfl
            | ok s' => exact ih s'
          · rw [if_neg hz, if_neg hz]
            simp [liftState]
            rfl

theorem lift_doMerge (files : List (Source α)) :
    doMergeFiles ⟨cmp', some d', none, some w'⟩ (files.map (liftSrc f)) =
      ((doMergeFiles ⟨cmp, some d, none, some w⟩ files).1, liftState f (doMergeFiles ⟨cmp, some d, none, some w⟩ files).2) := by
  unfold doMergeFiles
  have h1 := lift_refillAll hc (d := d) (d' := d') (w := w) (w' := w') (List.range files.length) ⟨files.map some, [], [], []⟩
  have e1 : liftState f ⟨files.map some, [], [], []⟩ = ⟨(files.map (liftSrc f)).map some, [], [], []⟩ := by
    unfold liftState
    simp [List.map_map, Function.comp_def]
  have e2 : recordCount (files.map (liftSrc f)) = recordCount files := by
    unfold recordCount
    rw [List.map_map]
    congr 1
    apply List.map_congr_left
    intro s _
    exact List.length_map _
  rw [e1] at h1
  dsimp only
  rw [List.length_map, h1, e2]
  cases refillAll ⟨cmp, some d, none, some w⟩ ⟨files.map some, [], [], []⟩ (List.range files.length) with
  | error e => dsimp only [Except.map]; rw [e1]
  | ok s' => exact lift_loop hc hd hw _ s'
end

/-! ### What is read and written -/

theorem recsOfFile_readAll : ∀ (n : Nat) (b : Bytes) (rs : List ViewRec), readAll true n b = (rs, .clean) →
    recsOfFile n b = some ⟨rs, none⟩
  | 0, b, rs, h => by
    cases h
    rfl
  | n + 1, b, rs, h => by
    unfold readAll at h
    unfold recsOfFile
    cases hr : readViewRecord true b with
    | eof => rw [hr] at h; cases h; rfl
    | fail => rw [hr] at h; cases h
    | garbage => rw [hr] at h; cases h
    | record r rest =>
      rw [hr] at h
      dsimp only at h ⊢
      cases he : readAll true n rest with
      | mk a c =>
        rw [he] at h
        cases h
        rw [recsOfFile_readAll n rest a he]
        rfl

theorem writeViewRecord_eq (r : ViewRec) : (writeViewRecord true r).1 = encodeRec r := by
  unfold writeViewRecord encodeRec
  simp only [if_true, List.length_singleton]
  congr 4
  congr 1
  omega

theorem viewFile_eq (rs : List ViewRec) : viewFile true rs = (recFile rs).bytes := by
  unfold viewFile recFile
  dsimp only
  congr 1
  funext r
  exact writeViewRecord_eq r

theorem length_encodeRec (r : ViewRec) : 0 < (encodeRec r).length := by
  unfold encodeRec
  simp

theorem length_recFile (rs : List ViewRec) : rs.length ≤ (recFile rs).bytes.length := by
  induction rs with
  | nil => exact Nat.le_refl _
  | cons r rs ih =>
    have h : (recFile (r :: rs)).bytes = encodeRec r ++ (recFile rs).bytes := rfl
    rw [h, List.length_append, List.length_cons]
    have := length_encodeRec r
    omega

/-! ### The last record -/

theorem lastRec_append (a b : List ViewRec) (k : Bytes) : lastRec (a ++ b) k = (lastRec b k).or (lastRec a k) := by
  unfold lastRec
  rw [List.reverse_append, List.find?_append]

theorem lastRec_flatten {files : List (List ViewRec)} {i : Nat} {f : List ViewRec} {w : ViewRec} (hi : files[i]? = some f)
    (hw : w ∈ f) (hn : (f.map (·.key)).Nodup) (hm : ∀ (j : Nat) (g : List ViewRec), files[j]? = some g → ∀ x ∈ g, x.key = w.key → j ≤ i) :
    lastRec files.flatten w.key = some w := by
  obtain ⟨hlt, he⟩ := List.getElem?_eq_some_iff.mp hi
  have hs : files = files.take i ++ f :: files.drop (i + 1) := by
    rw [← he, List.getElem_cons_drop, List.take_append_drop]
  rw [hs, List.flatten_append, List.flatten_cons, lastRec_append, lastRec_append]
  have h1 : lastRec (files.drop (i + 1)).flatten w.key = none := by
    rw [lastRec_none]
    intro r hr hk
    obtain ⟨g, hg, hrg⟩ := List.mem_flatten.mp hr
    obtain ⟨j, hj⟩ := List.mem_iff_getElem?.mp hg
    rw [List.getElem?_drop] at hj
    have := hm _ g hj r hrg hk
    omega
  have h2 : lastRec f w.key = some w := by
    cases hl : lastRec f w.key with
    | none => exact absurd rfl (lastRec_none.mp hl w hw)
    | some r =>
      obtain ⟨k1, k2⟩ := lastRec_mem hl
      rw [List.inj_on_of_nodup_map hn k1 hw k2]
  rw [h1, h2]
  rfl

end Couchstore
