import Verif.Spec.Spatial
import Verif.Lemmas.Modify2

/-! Helper lemmas: boxes and their keys. -/

namespace Couchstore

/-! ### Keys -/

/-- The bounds of a box one after the other. -/
def flatBox (b : Box) : List Bytes := b.flatMap fun x => [x.1, x.2]

theorem flatBox_length (b : Box) : (flatBox b).length = 2 * b.length := by
  induction b with
  | nil => rfl
  | cons x b ih =>
    show ([x.1, x.2] ++ flatBox b).length = _
    rw [List.length_append, ih, List.length_cons]
    simp only [List.length_cons, List.length_nil]; omega

theorem flatBox_flatten (b : Box) : (flatBox b).flatten = b.flatMap fun x => x.1 ++ x.2 := by
  induction b with
  | nil => rfl
  | cons x b ih =>
    show ([x.1, x.2] ++ flatBox b).flatten = (x.1 ++ x.2) ++ b.flatMap fun x => x.1 ++ x.2
    rw [List.flatten_append, ih]; simp

theorem flatten_length8 (l : List Bytes) (h : ∀ x ∈ l, x.length = 8) : l.flatten.length = 8 * l.length := by
  induction l with
  | nil => rfl
  | cons x l ih =>
    rw [List.flatten_cons, List.length_append, ih (fun y hy => h y (by simp [hy])), h x (by simp), List.length_cons]
    omega

theorem flatBox_ok {d : Nat} {b : Box} (h : BoxOk d b) : ∀ x ∈ flatBox b, x.length = 8 := by
  intro x hx
  obtain ⟨y, hy, hx⟩ := List.mem_flatMap.mp hx
  simp at hx
  rcases hx with rfl | rfl
  · exact (h.2 y hy).1.1
  · exact (h.2 y hy).2.1

theorem doubles_flatten (l : List Bytes) (h : ∀ x ∈ l, x.length = 8) : doubles l.length l.flatten = l := by
  induction l with
  | nil => rfl
  | cons x l ih =>
    have hx := h x (by simp)
    show (x :: l).flatten.take 8 :: doubles l.length ((x :: l).flatten.drop 8) = x :: l
    rw [List.flatten_cons, ← hx, List.take_left, List.drop_left, ih (fun y hy => h y (by simp [hy]))]

theorem boxKey_eq (b : Box) : boxKey b = enc16 (flatBox b).length ++ (flatBox b).flatten := by
  unfold boxKey
  rw [flatBox_length, flatBox_flatten]

theorem boxKey_length {d : Nat} {b : Box} (h : BoxOk d b) : (boxKey b).length = 2 + 16 * d := by
  rw [boxKey_eq, List.length_append, flatten_length8 _ (flatBox_ok h), flatBox_length, h.1]
  simp [enc16]; omega

theorem decode_boxKey {d : Nat} (hd : d ≤ 255) {b : Box} (h : BoxOk d b) :
    decodeSpatialKey (boxKey b) = .ok (flatBox b) := by
  have hl := boxKey_length h
  have hf := flatBox_length b
  rw [h.1] at hf
  have ht : (boxKey b).take 2 = enc16 (flatBox b).length := by
    rw [boxKey_eq]; exact List.take_left' (by simp)
  have hdr : (boxKey b).drop 2 = (flatBox b).flatten := by
    rw [boxKey_eq]; exact List.drop_left' (by simp)
  unfold decodeSpatialKey
  rw [if_neg (by omega), ht, hdr, beDec_beEnc 2 _ (by omega)]
  simp only
  rw [if_neg (by omega), doubles_flatten _ (flatBox_ok h)]

theorem flatBox_inj : ∀ {a b : Box}, flatBox a = flatBox b → a = b
  | [], [], _ => rfl
  | [], _ :: _, h => by simp [flatBox] at h
  | _ :: _, [], h => by simp [flatBox] at h
  | x :: a, y :: b, h => by
    have : x.1 :: x.2 :: flatBox a = y.1 :: y.2 :: flatBox b := h
    injection this with h1 h2
    injection h2 with h2 h3
    rw [flatBox_inj h3, Prod.ext h1 h2]

theorem boxKey_inj {d : Nat} (hd : d ≤ 255) {a b : Box} (ha : BoxOk d a) (hb : BoxOk d b) (h : boxKey a = boxKey b) : a = b := by
  have := decode_boxKey hd ha
  rw [h, decode_boxKey hd hb] at this
  injection this with this
  exact flatBox_inj this.symm

theorem encode_boxKey {d : Nat} (hd : d ≤ 255) {b : Box} (h : BoxOk d b) :
    encodeSpatialKey (flatBox b) 65535 = .ok (boxKey b) := by
  unfold encodeSpatialKey
  rw [if_neg (by rw [flatBox_length, h.1]; omega), boxKey_eq]

/-! ### The box around others -/

/-- The smallest box around two. -/
def joinBox (a b : Box) : Box := List.zipWith (fun x y => (dblMin x.1 y.1, dblMax x.2 y.2)) a b

theorem expandLoop_flat : ∀ (a b : Box) (i : Nat), i % 2 = 0 → expandLoop i (flatBox a) (flatBox b) = flatBox (joinBox a b)
  | [], _, _, _ => rfl
  | x :: a, [], i, _ => by
    show expandLoop i (x.1 :: x.2 :: flatBox a) [] = _
    rfl
  | x :: a, y :: b, i, h => by
    show expandLoop i (x.1 :: x.2 :: flatBox a) (y.1 :: y.2 :: flatBox b) =
      dblMin x.1 y.1 :: dblMax x.2 y.2 :: flatBox (joinBox a b)
    unfold expandLoop
    unfold expandLoop
    rw [if_pos h, if_neg (by omega), expandLoop_flat a b (i + 2) (by omega)]

theorem dblMin_ok {a b : Bytes} (ha : IsBound a) (hb : IsBound b) :
    IsBound (dblMin a b) ∧ bound (dblMin a b) = min (bound a) (bound b) := by
  obtain ⟨x, hx⟩ := Option.ne_none_iff_exists'.mp ha.2
  obtain ⟨y, hy⟩ := Option.ne_none_iff_exists'.mp hb.2
  unfold dblMin dblLt bound
  rw [hx, hy]
  by_cases h : y < x
  · simp only [h, decide_true, if_true, hy, Option.getD_some]
    exact ⟨hb, by omega⟩
  · simp only [h, decide_false, hx, Option.getD_some, Bool.false_eq_true, if_false]
    exact ⟨ha, by omega⟩

theorem dblMax_ok {a b : Bytes} (ha : IsBound a) (hb : IsBound b) :
    IsBound (dblMax a b) ∧ bound (dblMax a b) = max (bound a) (bound b) := by
  obtain ⟨x, hx⟩ := Option.ne_none_iff_exists'.mp ha.2
  obtain ⟨y, hy⟩ := Option.ne_none_iff_exists'.mp hb.2
  unfold dblMax dblLt bound
  rw [hx, hy]
  by_cases h : x < y
  · simp only [h, decide_true, if_true, hy, Option.getD_some]
    exact ⟨hb, by omega⟩
  · simp only [h, decide_false, hx, Option.getD_some, Bool.false_eq_true, if_false]
    exact ⟨ha, by omega⟩

theorem joinBox_ok : ∀ {d : Nat} {a b : Box}, BoxOk d a → BoxOk d b → BoxOk d (joinBox a b)
  | d, [], b, ha, hb => ⟨by simpa [joinBox] using ha.1, by simp [joinBox]⟩
  | d, x :: a, [], ha, hb => ⟨by simpa [joinBox] using hb.1, by simp [joinBox]⟩
  | d, x :: a, y :: b, ha, hb => by
    obtain ⟨h1, h2⟩ := joinBox_ok (d := a.length) (a := a) (b := b) ⟨rfl, fun z hz => ha.2 z (by simp [hz])⟩
      ⟨by have := ha.1; have := hb.1; simp at *; omega, fun z hz => hb.2 z (by simp [hz])⟩
    have hx := ha.2 x (by simp)
    have hy := hb.2 y (by simp)
    refine ⟨?_, ?_⟩
    · show (joinBox a b).length + 1 = d
      rw [h1]; exact ha.1
    · intro z hz
      have hz : z ∈ (dblMin x.1 y.1, dblMax x.2 y.2) :: joinBox a b := hz
      rcases List.mem_cons.mp hz with rfl | hz
      · exact ⟨(dblMin_ok hx.1 hy.1).1, (dblMax_ok hx.2 hy.2).1⟩
      · exact h2 z hz

theorem BoxOk.tail {d : Nat} {x : Bytes × Bytes} {a : Box} (h : BoxOk d (x :: a)) : BoxOk (d - 1) a :=
  ⟨by have := h.1; simp at this; omega, fun y hy => h.2 y (by simp [hy])⟩

theorem Encloses.refl (a : Box) : Encloses a a := by
  induction a with
  | nil => exact .nil
  | cons x a ih => exact .cons ⟨Int.le_refl _, Int.le_refl _⟩ ih

theorem Encloses.trans {a b c : Box} (h : Encloses a b) (h' : Encloses b c) : Encloses a c := by
  unfold Encloses at *
  induction h generalizing c with
  | nil => cases h'; exact .nil
  | cons hx hr ih =>
    cases h' with
    | cons hy hs => exact .cons ⟨Int.le_trans hx.1 hy.1, Int.le_trans hy.2 hx.2⟩ (ih hs)

theorem joinBox_left : ∀ {d : Nat} {a b : Box}, BoxOk d a → BoxOk d b → Encloses (joinBox a b) a
  | d, [], b, ha, hb => by exact .nil
  | d, x :: a, [], ha, hb => by have := ha.1; have := hb.1; simp at *; omega
  | d, x :: a, y :: b, ha, hb => by
    have hx := ha.2 x (by simp)
    have hy := hb.2 y (by simp)
    refine .cons ⟨?_, ?_⟩ (joinBox_left ha.tail hb.tail)
    · rw [(dblMin_ok hx.1 hy.1).2]; omega
    · rw [(dblMax_ok hx.2 hy.2).2]; omega

theorem joinBox_right : ∀ {d : Nat} {a b : Box}, BoxOk d a → BoxOk d b → Encloses (joinBox a b) b
  | d, [], [], ha, hb => by exact .nil
  | d, [], y :: b, ha, hb => by have := ha.1; have := hb.1; simp at *; omega
  | d, x :: a, [], ha, hb => by exact .nil
  | d, x :: a, y :: b, ha, hb => by
    have hx := ha.2 x (by simp)
    have hy := hb.2 y (by simp)
    refine .cons ⟨?_, ?_⟩ (joinBox_right ha.tail hb.tail)
    · rw [(dblMin_ok hx.1 hy.1).2]; omega
    · rw [(dblMax_ok hx.2 hy.2).2]; omega

theorem joinBox_least : ∀ {d : Nat} {a b c : Box}, BoxOk d a → BoxOk d b → Encloses c a → Encloses c b →
    Encloses c (joinBox a b)
  | d, [], [], c, ha, hb, h, _ => h
  | d, [], y :: b, c, ha, hb, h, _ => h
  | d, x :: a, [], c, ha, hb, _, h => h
  | d, x :: a, y :: b, z :: c, ha, hb, h, h' => by
    have hx := ha.2 x (by simp)
    have hy := hb.2 y (by simp)
    cases h with
    | cons h1 h2 =>
      cases h' with
      | cons h3 h4 =>
        refine .cons ⟨?_, ?_⟩ (joinBox_least ha.tail hb.tail h2 h4)
        · rw [(dblMin_ok hx.1 hy.1).2]; omega
        · rw [(dblMax_ok hx.2 hy.2).2]; omega

/-- The box around several. -/
def joinAll (a : Box) (bs : List Box) : Box := bs.foldl joinBox a

theorem joinAll_spec {d : Nat} (bs : List Box) (hbs : ∀ b ∈ bs, BoxOk d b) (a : Box) (ha : BoxOk d a) :
    BoxOk d (joinAll a bs) ∧ (∀ b ∈ a :: bs, Encloses (joinAll a bs) b) ∧
      ∀ c, (∀ b ∈ a :: bs, Encloses c b) → Encloses c (joinAll a bs) := by
  induction bs generalizing a with
  | nil => exact ⟨ha, by intro b hb; simp at hb; subst hb; exact Encloses.refl _, fun c hc => hc a (by simp)⟩
  | cons b bs ih =>
    have hb := hbs b (by simp)
    obtain ⟨h1, h2, h3⟩ := ih (fun x hx => hbs x (by simp [hx])) (joinBox a b) (joinBox_ok ha hb)
    refine ⟨h1, ?_, ?_⟩
    · intro x hx
      have hj := h2 (joinBox a b) (by simp)
      rcases List.mem_cons.mp hx with rfl | hx
      · exact hj.trans (joinBox_left ha hb)
      · rcases List.mem_cons.mp hx with rfl | hx
        · exact hj.trans (joinBox_right ha hb)
        · exact h2 x (by simp [hx])
    · intro c hc
      apply h3 c
      intro x hx
      rcases List.mem_cons.mp hx with rfl | hx
      · exact joinBox_least ha hb (hc a (by simp)) (hc b (by simp))
      · exact hc x (by simp [hx])

theorem reduceLoop_spec {d : Nat} (hd : d ≤ 255) (xs : List (Item × Box)) (hx : ∀ x ∈ xs, BoxOk d x.2 ∧ x.1.key = boxKey x.2)
    (a : Box) (ha : BoxOk d a) :
    spatialReduceLoop (xs.map (·.1)) (flatBox a) = .ok (flatBox (joinAll a (xs.map (·.2)))) := by
  induction xs generalizing a with
  | nil => rfl
  | cons x xs ih =>
    obtain ⟨h1, h2⟩ := hx x (by simp)
    rw [List.map_cons]
    unfold spatialReduceLoop
    rw [h2, decode_boxKey hd h1]
    simp only
    unfold expandMbb
    rw [if_neg (by rw [flatBox_length, flatBox_length, ha.1, h1.1]; simp), expandLoop_flat a x.2 0 rfl]
    simp only
    rw [ih (fun y hy => hx y (by simp [hy])) _ (joinBox_ok ha h1)]
    rfl

/-- The reduction of records with boxes is the key of a box around them. -/
theorem spatialReduce_spec {d : Nat} (hd : d ≤ 255) (xs : List (Item × Box)) (hne : xs ≠ [])
    (hx : ∀ x ∈ xs, BoxOk d x.2 ∧ x.1.key = boxKey x.2) :
    ∃ b, spatialReduce (xs.map (·.1)) = .ok (boxKey b) ∧ BoxOk d b ∧ (∀ x ∈ xs, Encloses b x.2) ∧
      ∀ c, (∀ x ∈ xs, Encloses c x.2) → Encloses c b := by
  cases xs with
  | nil => exact absurd rfl hne
  | cons x xs =>
    obtain ⟨h1, h2⟩ := hx x (by simp)
    obtain ⟨j1, j2, j3⟩ := joinAll_spec (d := d) (xs.map (·.2)) (by
      intro b hb
      obtain ⟨y, hy, rfl⟩ := List.mem_map.mp hb
      exact (hx y (by simp [hy])).1) x.2 h1
    refine ⟨joinAll x.2 (xs.map (·.2)), ?_, j1, ?_, ?_⟩
    · rw [List.map_cons]
      unfold spatialReduce
      dsimp only
      rw [h2, decode_boxKey hd h1]
      simp only
      rw [reduceLoop_spec hd xs (fun y hy => hx y (by simp [hy])) x.2 h1]
      simp only
      exact encode_boxKey hd j1
    · intro y hy
      apply j2
      rcases List.mem_cons.mp hy with rfl | hy
      · simp
      · exact List.mem_cons_of_mem _ (List.mem_map.mpr ⟨y, hy, rfl⟩)
    · intro c hc
      apply j3
      intro b hb
      rcases List.mem_cons.mp hb with rfl | hb
      · exact hc x (by simp)
      · obtain ⟨y, hy, rfl⟩ := List.mem_map.mp hb
        exact hc y (by simp [hy])

end Couchstore
