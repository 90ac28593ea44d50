/-
Model of sorted lists, /repo/src/views/sorted_list.cc.  A list is its elements in order; `cmp` is
the comparison function of the list.  Memory is not modelled, and `length` is the number of elements.
-/

namespace Couchstore

/-- sorted_list.cc:54-104 `sorted_list_add`. -/
def sortedAdd {α : Type} (cmp : α → α → Int) : List α → α → List α
  | [], x => [x]
  | y :: ys, x =>
    if cmp y x ≥ 0 then
      if cmp y x = 0 then x :: ys else x :: y :: ys
    else y :: sortedAdd cmp ys x

/-- sorted_list.cc:106-123 `sorted_list_get`. -/
def sortedGet {α : Type} (cmp : α → α → Int) : List α → α → Option α
  | [], _ => none
  | y :: ys, x =>
    if cmp y x = 0 then some y
    else if cmp y x > 0 then none
    else sortedGet cmp ys x

/-- sorted_list.cc:125-151 `sorted_list_remove`. -/
def sortedRemove {α : Type} (cmp : α → α → Int) : List α → α → List α
  | [], _ => []
  | y :: ys, x =>
    if cmp y x = 0 then ys
    else if cmp y x > 0 then y :: ys
    else y :: sortedRemove cmp ys x

end Couchstore
