import Verif.Model.MergeSort
import Verif.Lemmas.Sort

/-! Helper lemmas about the merge sort. -/

namespace Couchstore

variable {α : Type}

/-- Deal the blocks to two tapes in turn, starting with the second one if `t`. -/
def deal : Bool → List (List α) → List α × List α
  | _, [] => ([], [])
  | true, b :: bs => ((deal false bs).1, b ++ (deal false bs).2)
  | false, b :: bs => (b ++ (deal true bs).1, (deal true bs).2)

/-- Sorted blocks: all have `n` elements, the last one may have less. -/
def SortBlocks (le : α → α → Bool) (n : Nat) : List (List α) → Prop
  | [] => True
  | [b] => b ≠ [] ∧ b.length ≤ n ∧ b.Pairwise fun x y => le x y = true
  | b :: c :: r => b.length = n ∧ (b.Pairwise fun x y => le x y = true) ∧ SortBlocks le n (c :: r)

theorem SortBlocks.cons {le : α → α → Bool} {n : Nat} (hn : 1 ≤ n) {b : List α} {r : List (List α)} (hb : b.length = n)
    (hs : b.Pairwise fun x y => le x y = true) (hr : SortBlocks le n r) : SortBlocks le n (b :: r) := by
  cases r with
  | nil => exact ⟨by rintro rfl; simp at hb; omega, by omega, hs⟩
  | cons c r => exact ⟨hb, hs, hr⟩

theorem SortBlocks.tail {le : α → α → Bool} {n : Nat} {b : List α} {r : List (List α)} (h : SortBlocks le n (b :: r)) : SortBlocks le n r := by
  cases r with
  | nil => trivial
  | cons c r => exact h.2.2

theorem SortBlocks.head {le : α → α → Bool} {n : Nat} {b : List α} {r : List (List α)} (h : SortBlocks le n (b :: r)) :
    b.length ≤ n ∧ (b.Pairwise fun x y => le x y = true) ∧ (r ≠ [] → b.length = n) ∧ (1 ≤ n → b ≠ []) := by
  cases r with
  | nil => exact ⟨h.2.1, h.2.2, fun h => absurd rfl h, fun _ => h.1⟩
  | cons c r => exact ⟨by rw [h.1]; omega, h.2.1, fun _ => h.1, fun hn => by rintro rfl; have := h.1; simp at this; omega⟩

theorem SortBlocks.nonempty {le : α → α → Bool} {n : Nat} (hn : 1 ≤ n) : ∀ {r : List (List α)}, SortBlocks le n r → r.flatten = [] → r = []
  | [], _, _ => rfl
  | b :: r, h, h' => by
    have := (h.head.2.2.2 hn)
    simp only [List.flatten_cons, List.append_eq_nil_iff] at h'
    exact absurd h'.1 this

theorem deal_length : ∀ (t : Bool) (bs : List (List α)), (deal t bs).1.length + (deal t bs).2.length = bs.flatten.length
  | _, [] => rfl
  | true, b :: bs => by have := deal_length false bs; simp only [deal, List.length_append, List.flatten_cons]; omega
  | false, b :: bs => by have := deal_length true bs; simp only [deal, List.length_append, List.flatten_cons]; omega

/-- The tape has the size it says. -/
def Tape.Ok (t : Tape α) : Prop := t.size = t.stream.length

theorem pushAll_spec : ∀ (l : List α) (t : Tape α), t.Ok → pushAll t l = ⟨t.stream ++ l, (t.stream ++ l).length⟩
  | [], t, h => by
    obtain ⟨s, n⟩ := t
    simp only [Tape.Ok] at h
    simp [pushAll, h]
  | x :: l, t, h => by
    have h' : (t.push x).Ok := by
      simp only [Tape.Ok, Tape.push, List.length_append, List.length_singleton]
      rw [h]
    have := pushAll_spec l (t.push x) h'
    show pushAll (t.push x) l = _
    rw [this]
    simp [Tape.push]

theorem readBlock_spec (bs : Nat) : ∀ (src list : List α) (n : Nat), n < bs →
    readBlock bs src list n = if src.length < bs - n then (src.reverse ++ list, [], false)
      else ((src.take (bs - n)).reverse ++ list, src.drop (bs - n), true)
  | [], list, n, h => by
    rw [if_pos (by simp; omega)]
    rfl
  | x :: src, list, n, h => by
    unfold readBlock
    by_cases h1 : n + 1 = bs
    · rw [if_pos h1, if_neg (by simp; omega), show bs - n = 1 by omega]
      simp
    · rw [if_neg h1, readBlock_spec bs src (x :: list) (n + 1) (by omega)]
      by_cases h2 : src.length < bs - (n + 1)
      · rw [if_pos h2, if_pos (by simp only [List.length_cons]; omega)]
        simp
      · rw [if_neg h2, if_neg (by simp only [List.length_cons]; omega), show bs - n = (bs - (n + 1)) + 1 by omega]
        simp

/-- Strictly smaller, as a strict weak order. -/
structure LessOk (less : α → α → Bool) : Prop where
  trans : ∀ a b c, leOf less a b = true → leOf less b c = true → leOf less a c = true
  asymm : ∀ a b, less a b = true → less b a = false

theorem LessOk.total {less : α → α → Bool} (H : LessOk less) (a b : α) : (leOf less a b || leOf less b a) = true := by
  unfold leOf
  cases h : less b a with
  | false => rfl
  | true => simp [H.asymm b a h]

theorem LessOk.sorted {less : α → α → Bool} (H : LessOk less) (l : List α) :
    (sortBy (leOf less) l).Pairwise fun x y => leOf less x y = true := by
  refine sortBy_sorted (P := fun _ => True) ⟨fun a b _ _ => ?_, fun a b c _ _ _ => H.trans a b c⟩ l (fun _ _ => trivial)
  have := H.total a b
  simpa using this

theorem distribute_spec {less : α → α → Bool} (H : LessOk less) {bs : Nat} (hbs : 1 ≤ bs) :
    ∀ (fuel : Nat) (src : List α) (d0 d1 : Tape α) (t : Bool) (count : Nat), src.length < fuel → d0.Ok → d1.Ok →
      ∃ blocks, SortBlocks (leOf less) bs blocks ∧ blocks.flatten.Perm src ∧
        distribute less bs fuel src d0 d1 t count =
          some (pushAll d0 (deal t blocks).1, pushAll d1 (deal t blocks).2, count + src.length)
  | 0, src, _, _, _, _, h, _, _ => by omega
  | fuel + 1, src, d0, d1, t, count, h, h0, h1 => by
    unfold distribute
    rw [readBlock_spec bs src [] 0 (by omega)]
    simp only [Nat.sub_zero, List.append_nil]
    by_cases hl : src.length < bs
    · rw [if_pos hl]
      by_cases he : src = []
      · subst he
        exact ⟨[], trivial, by simp, by simp [deal, pushAll]⟩
      · refine ⟨[sortBy (leOf less) src.reverse], ⟨?_, ?_, H.sorted _⟩, ?_, ?_⟩
        · intro h'
          have := congrArg List.length h'
          rw [length_sortBy] at this
          simp at this
          exact he this
        · rw [length_sortBy]; simp; omega
        · simp only [List.flatten_cons, List.flatten_nil, List.append_nil]
          exact (sortBy_perm _ _).trans src.reverse_perm
        · dsimp only
          rw [if_neg (by simpa using he)]
          cases t <;> simp [deal, pushAll]
    · rw [if_neg hl]
      have htl : ((src.take bs).reverse).length = bs := by simp; omega
      obtain ⟨r, hr1, hr2, hr3⟩ := distribute_spec H hbs fuel (src.drop bs)
        (if t then d0 else pushAll d0 (sortBy (leOf less) (src.take bs).reverse))
        (if t then pushAll d1 (sortBy (leOf less) (src.take bs).reverse) else d1) (!t) (count + (src.take bs).reverse.length)
        (by rw [List.length_drop]; omega)
        (by split
            · exact h0
            · rw [pushAll_spec _ _ h0]; rfl)
        (by split
            · rw [pushAll_spec _ _ h1]; rfl
            · exact h1)
      refine ⟨sortBy (leOf less) (src.take bs).reverse :: r, hr1.cons hbs ?_ ?_, ?_, ?_⟩
      · rw [length_sortBy, htl]
      · exact H.sorted _
      · simp only [List.flatten_cons]
        refine ((sortBy_perm _ _).trans (List.reverse_perm _)).append hr2 |>.trans ?_
        rw [List.take_append_drop]
      · dsimp only
        rw [if_neg (by intro h'; rw [List.isEmpty_iff.mp h'] at htl; simp at htl; omega)]
        rw [if_pos rfl, hr3, htl, List.length_drop, show count + bs + (src.length - bs) = count + src.length by omega]
        cases t <;> simp [deal, pushAll, List.foldl_append]

/-! ### One pass -/

/-- A state in which `l`/`A0` and `r`/`B0` remain of the current blocks. -/
def MergeState.at (l : Option α) (A0 x : List α) (r : Option α) (B0 y : List α) (d0 d1 : Tape α) (k : Nat) (t : Bool) :
    MergeState α :=
  ⟨⟨A0 ++ x, (A0 ++ x).length⟩, ⟨B0 ++ y, (B0 ++ y).length⟩, d0, d1, l, r, A0.length, B0.length, k, t⟩

theorem fillLeft_at (l : Option α) (A0 x : List α) (r : Option α) (B0 y : List α) (d0 d1 : Tape α) (k : Nat) (t : Bool) :
    (MergeState.at l A0 x r B0 y d0 d1 k t).fillLeft =
      some (MergeState.at (l.toList ++ A0).head? (l.toList ++ A0).tail x r B0 y d0 d1 k t) := by
  cases l with
  | some a => simp [MergeState.fillLeft, MergeState.at]
  | none =>
    cases A0 with
    | nil => simp [MergeState.fillLeft, MergeState.at]
    | cons a A => simp [MergeState.fillLeft, MergeState.at, Tape.pop]

theorem fillRight_at (l : Option α) (A0 x : List α) (r : Option α) (B0 y : List α) (d0 d1 : Tape α) (k : Nat) (t : Bool) :
    (MergeState.at l A0 x r B0 y d0 d1 k t).fillRight =
      some (MergeState.at l A0 x (r.toList ++ B0).head? (r.toList ++ B0).tail y d0 d1 k t) := by
  cases r with
  | some a => simp [MergeState.fillRight, MergeState.at]
  | none =>
    cases B0 with
    | nil => simp [MergeState.fillRight, MergeState.at]
    | cons a A => simp [MergeState.fillRight, MergeState.at, Tape.pop]

theorem head_tail (l : List α) : l.head?.toList ++ l.tail = l := by cases l <;> rfl

theorem mergeLoop_run (less : α → α → Bool) (bs : Nat) : ∀ (m : Nat) (l : Option α) (A0 x : List α) (r : Option α) (B0 y : List α)
    (d0 d1 : Tape α) (k : Nat) (t : Bool), (l.toList ++ A0).length + (r.toList ++ B0).length = m → m ≤ k →
    mergeLoop less bs m (MergeState.at l A0 x r B0 y d0 d1 k t) =
      some (MergeState.at none [] x none [] y
        (if t then d0 else pushAll d0 ((l.toList ++ A0).merge (r.toList ++ B0) (leOf less)))
        (if t then pushAll d1 ((l.toList ++ A0).merge (r.toList ++ B0) (leOf less)) else d1) (k - m) t)
  | 0, l, A0, x, r, B0, y, d0, d1, k, t, hm, hk => by
    have h1 : l.toList ++ A0 = [] := List.length_eq_zero_iff.mp (by omega)
    have h2 : r.toList ++ B0 = [] := List.length_eq_zero_iff.mp (by omega)
    rw [h1, h2]
    cases l with
    | some a => simp at h1
    | none =>
      cases r with
      | some a => simp at h2
      | none =>
        simp only [Option.toList_none, List.nil_append] at h1 h2
        subst h1; subst h2
        simp [mergeLoop, pushAll]
  | m + 1, l, A0, x, r, B0, y, d0, d1, k, t, hm, hk => by
    unfold mergeLoop MergeState.step
    have hnb : (MergeState.at l A0 x r B0 y d0 d1 k t).newBlock bs = MergeState.at l A0 x r B0 y d0 d1 k t := by
      unfold MergeState.newBlock
      rw [if_neg (by show ¬ k = 0; omega)]
    rw [hnb, fillLeft_at, Option.bind_some, fillRight_at, Option.bind_some]
    generalize hA : l.toList ++ A0 = A at *
    generalize hB : r.toList ++ B0 = B at *
    match A, B with
    | [], [] => simp at hm
    | a :: A, [] =>
      have ih := mergeLoop_run less bs m none A x none [] y (if t then d0 else d0.push a) (if t then d1.push a else d1) (k - 1) t
        (by simpa using hm) (by omega)
      simp only [Option.toList_none, List.nil_append, List.merge_right] at ih
      cases t <;> simp [MergeState.emit, MergeState.at, MergeState.push, pushAll] at ih ⊢ <;>
        rw [ih, show k - (m + 1) = k - 1 - m by omega]
    | [], b :: B =>
      have ih := mergeLoop_run less bs m none [] x none B y (if t then d0 else d0.push b) (if t then d1.push b else d1) (k - 1) t
        (by simpa using hm) (by omega)
      simp only [Option.toList_none, List.nil_append, List.nil_merge] at ih
      cases t <;> simp [MergeState.emit, MergeState.at, MergeState.push, pushAll] at ih ⊢ <;>
        rw [ih, show k - (m + 1) = k - 1 - m by omega]
    | a :: A, b :: B =>
      by_cases hless : less b a = true
      · have ih := mergeLoop_run less bs m (some a) A x none B y (if t then d0 else d0.push b) (if t then d1.push b else d1)
          (k - 1) t (by simp at hm ⊢; omega) (by omega)
        have hmg : (a :: A).merge (b :: B) (leOf less) = b :: (a :: A).merge B (leOf less) := by
          rw [List.cons_merge_cons_neg]; simp [leOf, hless]
        rw [hmg]
        simp only [Option.toList_none, Option.toList_some, List.nil_append, List.singleton_append] at ih
        cases t <;> simp [MergeState.emit, MergeState.at, MergeState.push, pushAll, hless] at ih ⊢ <;>
          rw [ih, show k - (m + 1) = k - 1 - m by omega]
      · have ih := mergeLoop_run less bs m none A x (some b) B y (if t then d0 else d0.push a) (if t then d1.push a else d1)
          (k - 1) t (by simp at hm ⊢; omega) (by omega)
        have hmg : (a :: A).merge (b :: B) (leOf less) = a :: A.merge (b :: B) (leOf less) := by
          rw [List.cons_merge_cons_pos]; simp [leOf, hless]
        rw [hmg]
        simp only [Option.toList_none, Option.toList_some, List.nil_append, List.singleton_append] at ih
        cases t <;> simp [MergeState.emit, MergeState.at, MergeState.push, pushAll, hless] at ih ⊢ <;>
          rw [ih, show k - (m + 1) = k - 1 - m by omega]

theorem mergeLoop_add (less : α → α → Bool) (bs : Nat) : ∀ (m n : Nat) (s : MergeState α),
    mergeLoop less bs (m + n) s = (mergeLoop less bs m s).bind (mergeLoop less bs n)
  | 0, n, s => by simp [mergeLoop]
  | m + 1, n, s => by
    rw [show m + 1 + n = (m + n) + 1 by omega]
    unfold mergeLoop
    cases s.step less bs with
    | none => rfl
    | some s' => exact mergeLoop_add less bs m n s'

/-- One block of the result: the merge of one block of each source tape. -/
theorem mergeLoop_block (less : α → α → Bool) {n : Nat} (hn : 1 ≤ n) (a x b y : List α) (d0 d1 : Tape α) (t : Bool)
    (ha : min (a ++ x).length n = a.length) (hb : min (b ++ y).length n = b.length) (hab : 0 < a.length + b.length) :
    mergeLoop less (n * 2) (a.length + b.length) (MergeState.at none [] (a ++ x) none [] (b ++ y) d0 d1 0 t) =
      some (MergeState.at none [] x none [] y
        (if !t then d0 else pushAll d0 (a.merge b (leOf less)))
        (if !t then pushAll d1 (a.merge b (leOf less)) else d1) (n * 2 - (a.length + b.length)) (!t)) := by
  have h1 : (MergeState.at none [] (a ++ x) none [] (b ++ y) d0 d1 0 t).newBlock (n * 2) =
      MergeState.at none a x none b y d0 d1 (n * 2) (!t) := by
    unfold MergeState.newBlock
    rw [if_pos (show (MergeState.at none [] (a ++ x) none [] (b ++ y) d0 d1 0 t).destRem = 0 from rfl)]
    simp only [MergeState.at, List.nil_append, Nat.mul_div_cancel _ (show 0 < 2 by omega), ha, hb]
  have h2 : (MergeState.at none a x none b y d0 d1 (n * 2) (!t)).newBlock (n * 2) =
      MergeState.at none a x none b y d0 d1 (n * 2) (!t) := by
    unfold MergeState.newBlock
    rw [if_neg (by show ¬ n * 2 = 0; omega)]
  have h3 : mergeLoop less (n * 2) (a.length + b.length) (MergeState.at none [] (a ++ x) none [] (b ++ y) d0 d1 0 t) =
      mergeLoop less (n * 2) (a.length + b.length) (MergeState.at none a x none b y d0 d1 (n * 2) (!t)) := by
    obtain ⟨m, hm⟩ : ∃ m, a.length + b.length = m + 1 := ⟨a.length + b.length - 1, by omega⟩
    rw [hm]
    unfold mergeLoop MergeState.step
    rw [h1, h2]
  rw [h3]
  have := mergeLoop_run less (n * 2) (a.length + b.length) none a x none b y d0 d1 (n * 2) (!t) (by simp) (by omega)
  simpa using this

/-- The blocks a pass makes. -/
def pairMerge (le : α → α → Bool) : List (List α) → List (List α)
  | [] => []
  | [a] => [a]
  | a :: b :: r => a.merge b le :: pairMerge le r

theorem pairMerge_perm (le : α → α → Bool) : ∀ bs : List (List α), (pairMerge le bs).flatten.Perm bs.flatten
  | [] => .refl _
  | [a] => .refl _
  | a :: b :: r => by
    simp only [pairMerge, List.flatten_cons, ← List.append_assoc]
    exact (List.merge_perm_append le).append (pairMerge_perm le r)

theorem pairMerge_nil {le : α → α → Bool} : ∀ {bs : List (List α)}, pairMerge le bs = [] → bs = []
  | [], _ => rfl
  | [_], h => by simp [pairMerge] at h
  | _ :: _ :: _, h => by simp [pairMerge] at h

theorem pairMerge_blocks {less : α → α → Bool} (H : LessOk less) {n : Nat} (hn : 1 ≤ n) :
    ∀ bs : List (List α), SortBlocks (leOf less) n bs → SortBlocks (leOf less) (n * 2) (pairMerge (leOf less) bs)
  | [], _ => trivial
  | [a], h => ⟨h.1, by have := h.2.1; omega, h.2.2⟩
  | a :: b :: r, h => by
    have ih := pairMerge_blocks H hn r h.tail.tail
    have hs : (a.merge b (leOf less)).Pairwise fun x y => leOf less x y = true :=
      List.pairwise_merge H.trans H.total a b h.head.2.1 h.tail.head.2.1
    have hla := h.head.2.2.1 (by simp)
    cases hr : r with
    | nil =>
      subst hr
      have hlb := h.tail.head.1
      refine ⟨?_, by rw [List.length_merge]; omega, hs⟩
      intro h'
      have := congrArg List.length h'
      rw [List.length_merge] at this
      simp only [List.length_nil] at this
      omega
    | cons c r' =>
      subst hr
      have hlb := h.tail.head.2.2.1 (by simp)
      exact ih.cons (by omega) (by rw [List.length_merge]; omega) hs

theorem deal_false_pair (a b : List α) (r : List (List α)) :
    deal false (a :: b :: r) = (a ++ (deal false r).1, b ++ (deal false r).2) := rfl

/-- A whole pass. -/
theorem mergeLoop_pass (less : α → α → Bool) {n : Nat} (hn : 1 ≤ n) : ∀ (bs : List (List α)) (d0 d1 : Tape α) (t : Bool),
    SortBlocks (leOf less) n bs →
    ∃ s, mergeLoop less (n * 2) bs.flatten.length
        (MergeState.at none [] (deal false bs).1 none [] (deal false bs).2 d0 d1 0 t) = some s ∧
      s.d0 = pushAll d0 (deal (!t) (pairMerge (leOf less) bs)).1 ∧
      s.d1 = pushAll d1 (deal (!t) (pairMerge (leOf less) bs)).2 ∧
      ((pairMerge (leOf less) bs).length = 1 → s.target = !t)
  | [], d0, d1, t, _ => ⟨_, rfl, by simp [MergeState.at, pairMerge, deal, pushAll], by simp [MergeState.at, pairMerge, deal, pushAll],
      by simp [pairMerge]⟩
  | [a], d0, d1, t, h => by
    have ha : a.length ≠ 0 := by have := h.1; simpa using this
    have := mergeLoop_block less hn a [] [] [] d0 d1 t (by have := h.2.1; simp; omega) (by simp) (by simp; omega)
    rw [show [a].flatten.length = a.length + ([] : List α).length by simp]
    refine ⟨_, this, ?_, ?_, fun _ => ?_⟩
    · cases t <;> simp [MergeState.at, pairMerge, deal, pushAll]
    · cases t <;> simp [MergeState.at, pairMerge, deal, pushAll]
    · rfl
  | a :: b :: r, d0, d1, t, h => by
    have hla := h.head.2.2.1 (by simp)
    have hlb := h.tail.head.1
    have hx := deal_length false r
    have hr0 : r ≠ [] → b.length = n := h.tail.head.2.2.1
    have hrl : b.length ≠ n → (deal false r).2.length = 0 := by
      intro hb
      by_cases hr : r = []
      · subst hr; rfl
      · exact absurd (hr0 hr) hb
    have := mergeLoop_block less hn a (deal false r).1 b (deal false r).2 d0 d1 t (by rw [List.length_append]; omega)
      (by rw [List.length_append]; omega) (by omega)
    rw [show (a :: b :: r).flatten.length = (a.length + b.length) + r.flatten.length by simp; omega, mergeLoop_add,
      deal_false_pair]
    dsimp only
    rw [this]
    by_cases hr : r = []
    · subst hr
      refine ⟨_, rfl, ?_, ?_, fun _ => ?_⟩
      · cases t <;> simp [MergeState.at, pairMerge, deal, pushAll]
      · cases t <;> simp [MergeState.at, pairMerge, deal, pushAll]
      · rfl
    · rw [show n * 2 - (a.length + b.length) = 0 by have := hr0 hr; omega]
      obtain ⟨s, h1, h2, h3, h4⟩ := mergeLoop_pass less hn r
        (if !t then d0 else pushAll d0 (a.merge b (leOf less))) (if !t then pushAll d1 (a.merge b (leOf less)) else d1) (!t) h.tail.tail
      refine ⟨s, h1, ?_, ?_, ?_⟩
      · rw [h2]; cases t <;> simp [pairMerge, deal, pushAll, List.foldl_append]
      · rw [h3]; cases t <;> simp [pairMerge, deal, pushAll, List.foldl_append]
      · intro h'
        simp only [pairMerge, List.length_cons] at h'
        have h0 : pairMerge (leOf less) r = [] := List.length_eq_zero_iff.mp (by omega)
        exact absurd (pairMerge_nil h0) hr

/-- SortBlocks that are not full at the end: at most one if they are that large. -/
theorem SortBlocks.single {le : α → α → Bool} {n : Nat} (hn : 1 ≤ n) : ∀ {bs : List (List α)}, SortBlocks le n bs → 0 < bs.flatten.length →
    bs.flatten.length ≤ n → ∃ b, bs = [b]
  | [], _, h, _ => by simp at h
  | [b], _, _, _ => ⟨b, rfl⟩
  | b :: c :: r, h, _, h' => by
    have h1 := h.1
    have h2 := h.tail.head.2.2.2 hn
    have : c.length ≠ 0 := by simpa using h2
    simp only [List.flatten_cons, List.length_append] at h'
    omega

theorem mergePasses_spec {less : α → α → Bool} (H : LessOk less) (count : Nat) (hc : 0 < count) :
    ∀ (fuel n : Nat) (bs : List (List α)), 1 ≤ n → SortBlocks (leOf less) n bs → bs.flatten.length = count → count < fuel + n → 0 < fuel →
      ∃ out, mergePasses less count fuel n ⟨(deal false bs).1, (deal false bs).1.length⟩
          ⟨(deal false bs).2, (deal false bs).2.length⟩ = some out ∧
        (out.Pairwise fun x y => leOf less x y = true) ∧ out.Perm bs.flatten
  | 0, _, _, _, _, _, _, h => by omega
  | fuel + 1, n, bs, hn, hb, hl, hf, _ => by
    obtain ⟨s, h1, h2, h3, h4⟩ := mergeLoop_pass less hn bs .new .new true hb
    have hok : (Tape.new : Tape α).Ok := rfl
    rw [pushAll_spec _ _ hok] at h2 h3
    have hb' := pairMerge_blocks H hn bs hb
    have hp := pairMerge_perm (leOf less) bs
    have hl' : (pairMerge (leOf less) bs).flatten.length = count := by rw [hp.length_eq, hl]
    unfold mergePasses
    rw [hl] at h1
    simp only [MergeState.at, List.nil_append, List.length_nil] at h1
    dsimp only
    rw [h1]
    dsimp only
    by_cases hlt : n * 2 < count
    · rw [if_pos hlt, h2, h3]
      obtain ⟨out, g1, g2, g3⟩ := mergePasses_spec H count hc fuel (n * 2) _ (by omega) hb' hl' (by omega) (by omega)
      exact ⟨out, by simpa [Tape.new] using g1, g2, g3.trans hp⟩
    · rw [if_neg hlt]
      obtain ⟨b, hs⟩ := hb'.single (by omega) (by omega) (by omega)
      rw [h4 (by rw [hs]; rfl), h2, hs]
      rw [hs] at hb' hp
      refine ⟨b, by simp [Tape.new, deal], hb'.2.2, ?_⟩
      simpa using hp

theorem mergeSortStream_spec {less : α → α → Bool} (H : LessOk less) {bs : Nat} (hbs : 1 ≤ bs) (src : List α) :
    ∃ out, mergeSortStream less bs src = some out ∧ (out.Pairwise fun x y => leOf less x y = true) ∧ out.Perm src := by
  have hok : (Tape.new : Tape α).Ok := rfl
  obtain ⟨blocks, h1, h2, h3⟩ := distribute_spec H hbs (src.length + 2) src .new .new false 0 (by omega) hok hok
  rw [pushAll_spec _ _ hok, pushAll_spec _ _ hok, Nat.zero_add] at h3
  unfold mergeSortStream
  rw [h3]
  simp only [Tape.new, List.nil_append]
  by_cases hc : src.length ≤ bs
  · rw [if_pos hc]
    refine ⟨_, rfl, ?_⟩
    by_cases h0 : src.length = 0
    · have hs := List.length_eq_zero_iff.mp h0
      subst hs
      have := h1.nonempty hbs (List.perm_nil.mp h2)
      subst this
      exact ⟨.nil, .refl _⟩
    · obtain ⟨b, hb⟩ := h1.single hbs (by rw [h2.length_eq]; omega) (by rw [h2.length_eq]; omega)
      subst hb
      refine ⟨by simpa [deal] using h1.2.2, ?_⟩
      simpa [deal] using h2
  · rw [if_neg hc]
    obtain ⟨out, g1, g2, g3⟩ := mergePasses_spec H src.length (by omega) (src.length + 1) bs blocks hbs h1 h2.length_eq (by omega) (by omega)
    exact ⟨out, g1, g2, g3.trans h2⟩

end Couchstore
