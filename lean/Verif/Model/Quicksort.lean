/-
Model of /repo/src/quicksort.c: the fallback for systems without `qsort_r` (Bentley and McIlroy's quicksort).

Memory is an array of elements; a pointer is an index.  `none`: an element outside of the array would be read or
written, or the recursion would not end.  Exchanging elements word by word is not modelled (60-90).
-/

namespace Couchstore

variable {α : Type}

/-- quicksort.c:84-90 `swap`. -/
def swapAt (a : Array α) (i j : Nat) : Option (Array α) :=
  if h : i < a.size ∧ j < a.size then some (a.swap i j h.1 h.2) else none

/-- quicksort.c:94 `CMP` of two elements of the array. -/
def cmpAt (cmp : α → α → Int) (a : Array α) (i j : Nat) : Option Int :=
  match a[i]?, a[j]? with
  | some x, some y => some (cmp x y)
  | _, _ => none

/-- quicksort.c:96-101 `med3`. -/
def med3 (cmp : α → α → Int) (arr : Array α) (a b c : Nat) : Option Nat := do
  if (← cmpAt cmp arr a b) < 0 then
    if (← cmpAt cmp arr b c) < 0 then return b
    else return if (← cmpAt cmp arr a c) < 0 then c else a
  else
    if 0 < (← cmpAt cmp arr b c) then return b
    else return if (← cmpAt cmp arr a c) < 0 then a else c

/-- quicksort.c:114-117: the inner loop of the insertion sort; `p` is the distance of `pl` from the beginning. -/
def insertDown (cmp : α → α → Int) (lo : Nat) (a : Array α) : Nat → Option (Array α)
  | 0 => some a
  | p + 1 => do
    if 0 < (← cmpAt cmp a (lo + p) (lo + p + 1)) then
      insertDown cmp lo (← swapAt a (lo + p + 1) (lo + p)) p
    else return a

/-- quicksort.c:113: the outer loop; `todo` elements have not been inserted yet. -/
def insertLoop (cmp : α → α → Int) (lo : Nat) (a : Array α) (pm : Nat) : Nat → Option (Array α)
  | 0 => some a
  | todo + 1 => do insertLoop cmp lo (← insertDown cmp lo a pm) (pm + 1) todo

/-- quicksort.c:137-143: the loop from the left.  The last number is the number of elements from `pb` to `pc`. -/
def scanUp (cmp : α → α → Int) (lo : Nat) (a : Array α) (pa pb : Nat) : Nat → Option (Array α × Nat × Nat × Nat)
  | 0 => some (a, pa, pb, 0)
  | k + 1 =>
    match cmpAt cmp a pb lo with
    | none => none
    | some r =>
      if r ≤ 0 then
        if r = 0 then
          match swapAt a pa pb with
          | none => none
          | some a => scanUp cmp lo a (pa + 1) (pb + 1) k
        else scanUp cmp lo a pa (pb + 1) k
      else some (a, pa, pb, k + 1)

/-- quicksort.c:144-150: the loop from the right; `pc = pb + k`. -/
def scanDown (cmp : α → α → Int) (lo : Nat) (a : Array α) (pb pd : Nat) : Nat → Option (Array α × Nat × Nat)
  | 0 => some (a, pd, 0)
  | k + 1 =>
    match cmpAt cmp a (pb + k) lo with
    | none => none
    | some r =>
      if 0 ≤ r then
        if r = 0 then
          match swapAt a (pb + k) pd with
          | none => none
          | some a => scanDown cmp lo a pb (pd - 1) k
        else scanDown cmp lo a pb pd k
      else some (a, pd, k + 1)

/-- quicksort.c:136-156: the loop that divides the elements.  The first argument bounds the number of rounds. -/
def splitLoop (cmp : α → α → Int) (lo : Nat) : Nat → Array α → Nat → Nat → Nat → Nat → Option (Array α × Nat × Nat × Nat)
  | 0, _, _, _, _, _ => none
  | fuel + 1, a, pa, pb, pd, k =>
    match scanUp cmp lo a pa pb k with
    | none => none
    | some (a, pa, pb, k) =>
      match scanDown cmp lo a pb pd k with
      | none => none
      | some (a, pd, 0) => some (a, pa, pb, pd)
      | some (_, _, 1) => none
      | some (a, pd, k + 2) =>
        match swapAt a pb (pb + k + 1) with
        | none => none
        | some a => splitLoop cmp lo fuel a pa (pb + 1) pd k

/-- quicksort.c:92 `vecswap` of `r` elements. -/
def vecSwap (a : Array α) (i j : Nat) : Nat → Option (Array α)
  | 0 => some a
  | r + 1 =>
    match swapAt a i j with
    | none => none
    | some a => vecSwap a (i + 1) (j + 1) r

/-- quicksort.c:120-132: the place of the pivot. -/
def pickPivot (cmp : α → α → Int) (a : Array α) (lo n : Nat) : Option Nat := do
  let pm := lo + n / 2
  if n ≤ 7 then return pm
  else
    let pl := lo
    let pn := lo + (n - 1)
    if 40 < n then
      let d := n / 8
      let pl ← med3 cmp a pl (pl + d) (pl + 2 * d)
      let pm ← med3 cmp a (pm - d) pm (pm + d)
      let pn ← med3 cmp a (pn - 2 * d) (pn - d) pn
      med3 cmp a pl pm pn
    else med3 cmp a pl pm pn

/-- quicksort.c:120-162: divide the `n` elements from `lo` on; the array, and how many are less and greater than the
pivot: those are at the beginning and at the end. -/
def splitStep (cmp : α → α → Int) (a : Array α) (lo n : Nat) : Option (Array α × Nat × Nat) :=
  match pickPivot cmp a lo n with
  | none => none
  | some pm =>
    match swapAt a lo pm with
    | none => none
    | some a =>
      match splitLoop cmp lo n a (lo + 1) (lo + 1) (lo + (n - 1)) (n - 1) with
      | none => none
      | some (a, pa, pb, pd) =>
        let r := min (pa - lo) (pb - pa)
        match vecSwap a lo (pb - r) r with
        | none => none
        | some a =>
          let r := min (pd + 1 - pb) (lo + n - pd - 1)
          match vecSwap a pb (lo + n - r) r with
          | none => none
          | some a => some (a, pb - pa, pd + 1 - pb)

/-- quicksort.c:103-173 `qsort_fallback` of the `n` elements from `lo` on.  The first argument bounds the depth of the
recursion; the loop at the end is a recursive call. -/
def qsortFallback (cmp : α → α → Int) : Nat → Array α → Nat → Nat → Option (Array α)
  | 0, _, _, _ => none
  | fuel + 1, a, lo, n =>
    if n < 7 then insertLoop cmp lo a 1 (n - 1)
    else
      match splitStep cmp a lo n with
      | none => none
      | some (a, less, greater) =>
        match (if 1 < less then qsortFallback cmp fuel a lo less else some a) with
        | none => none
        | some a => if 1 < greater then qsortFallback cmp fuel a (lo + n - greater) greater else some a

/-- quicksort.c:179-195 `quicksort`, without `qsort_r`. -/
def quicksort (cmp : α → α → Int) (a : Array α) : Option (Array α) := qsortFallback cmp (a.size + 1) a 0 a.size

end Couchstore
