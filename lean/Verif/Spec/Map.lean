import Verif.Model.Btree

/-! The abstract meaning of index operations on a map from keys to values. -/

namespace Couchstore

/-- A map from keys to values. -/
abbrev KMap := Bytes → Option Bytes

/-- Set or delete one key. -/
def KMap.set (m : KMap) (k : Bytes) (v : Option Bytes) : KMap := fun k' => if k' = k then v else m k'

/-- Insert the action's value, telling the save callback the previous value. -/
def mapInsert {σ} (rq : Rq σ) (a : Action) (u : σ) (m : KMap) : Except Err (σ × KMap) :=
  match rq.saveCb with
  | none => .ok (u, m.set a.key (some a.data))
  | some cb =>
    match cb u a.key (m a.key) a.data a.userReq with
    | .ok u' => .ok (u', m.set a.key (some a.data))
    | .error e => .error e

/-- One operation: `remove` deletes, `insert` sets, a fetch shows the current value to the fetch
callback and `fetchInsert` then also sets (unless the callback turned it into a plain fetch). -/
def mapStep {σ} (rq : Rq σ) (a : Action) (u : σ) (m : KMap) : Except Err (σ × KMap) :=
  match a.type with
  | .remove => .ok (u, m.set a.key none)
  | .insert => mapInsert rq a u m
  | t =>
    match rq.fetchCb with
    | none => if t = .fetch then .ok (u, m) else mapInsert rq a u m
    | some cb =>
      match cb u a (m a.key) with
      | .ok (u', t') => if t' = .fetch then .ok (u', m) else mapInsert rq a u' m
      | .error e => .error e

/-- A batch: one operation after another. -/
def mapFold {σ} (rq : Rq σ) : List Action → σ → KMap → Except Err (σ × KMap)
  | [], u, m => .ok (u, m)
  | a :: as, u, m =>
    match mapStep rq a u m with
    | .ok (u', m') => mapFold rq as u' m'
    | .error e => .error e

end Couchstore
