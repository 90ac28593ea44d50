import Verif.Model.Latency

/-! How the collection of latencies is used, seen from outside: calls begin and finish, the collection is started and stopped, and the
latencies are asked for. -/

namespace Couchstore

structure LatUse where
  /-- the collection is on -/
  on : Bool := false
  /-- the collection is being stopped or the latencies are being read -/
  busy : Bool := false
  /-- the threads that are in a call -/
  active : List Nat := []
  /-- the number and the sum of the latencies of the calls that finished since the collection was started -/
  count : Nat := 0
  sum : Nat := 0

/-- One more event; `none` if the collection is started, stopped or read while some thread is in a call. -/
def latUse1 (u : LatUse) : LatAct → Option LatUse
  | .begin t => if u.busy then none else some { u with active := t :: u.active }
  | .step _ => some u
  | .finish t v =>
    let u := { u with active := u.active.erase t }
    some (if u.on then { u with count := u.count + 1, sum := u.sum + v } else u)
  | .start => if u.busy ∨ u.active ≠ [] then none else some (if u.on then u else { u with on := true, count := 0, sum := 0 })
  | .stopFree => if u.busy ∨ u.active ≠ [] then none else some { u with on := false, busy := true }
  | .reportBegin => if u.busy ∨ u.active ≠ [] then none else some { u with busy := true }
  | .stopNull => some { u with busy := false }
  | .reportEnd => some { u with busy := false }

/-- `none` if the collection was started, stopped or read while some thread was in a call. -/
def latUse (u : LatUse) : List LatAct → Option LatUse
  | [] => some u
  | a :: as => (latUse1 u a).bind fun u => latUse u as

end Couchstore
