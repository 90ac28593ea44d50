/-!
Model of /repo/src/couch_latency.cc and couch_latency_internal.h: the collection of latencies, as a transition system of any number of
threads that are in calls of one function of the API, and of a thread that starts and stops the collection and asks for the latencies.

Every function of the API has its own two static variables and, as no two of them have the same name, its own entry of the map, so
that the functions do not interact except that they share the collector: one function is modelled.  A step is an access of a shared
variable, together with the accesses of variables of the thread that follow.  A section that a mutex guards is one step; the walk over
the map, which is not guarded, has a begin and an end.  Memory is sequentially consistent.  Using something that was freed, and
changing the map while it is walked, sets `bad`.  A histogram is the number of its values.  The timer takes its time from the caller.
-/

namespace Couchstore

/-- couch_latency_internal.h:28-71 `CouchLatencyItem`. -/
structure LatItem where
  alive : Bool := true
  registered : Bool := false
  count : Nat := 0
  sum : Nat := 0
deriving DecidableEq, Repr

/-- Where a thread is in `COLLECT_LATENCY` (couch_latency_internal.h:124-153) and in the function that is timed. -/
inductive LatPc where
  /-- in no call -/
  | idle
  /-- :149, the collection is off -/
  | disabled
  /-- :151 -/
  | nulling
  /-- :134, with the collector `c` -/
  | enabled (c : Nat)
  /-- :145, the item exists -/
  | have (c i : Nat)
  /-- :139, 147: `addItem`; `own` if the item was made by this call -/
  | adding (c i : Nat) (own : Bool)
  /-- :139, 147: the store of the result `r` -/
  | storing (i : Nat) (own : Bool) (r : Nat)
  /-- :140 -/
  | compare (i : Nat)
  /-- :143 -/
  | moving (i : Nat)
  /-- :153 -/
  | timer
  /-- the rest of the function -/
  | running (item : Option Nat)
deriving DecidableEq, Repr

/-- couch_latency.cc:20-21, couch_latency_internal.h:124-128: the variables. -/
structure LatState where
  /-- the instance is not null -/
  coll : Bool := false
  /-- the number of the last collector, and whether it exists -/
  gen : Nat := 0
  live : Bool := false
  /-- its entry for the function -/
  entry : Option Nat := none
  /-- `CL_item_ptr` -/
  ptr : Option Nat := none
  /-- `CL_item` -/
  owner : Option Nat := none
  items : Nat → LatItem := fun _ => {}
  /-- items from here on have not been made -/
  next : Nat := 0
  pcs : Nat → LatPc := fun _ => .idle
  stopping : Bool := false
  walking : Bool := false
  /-- what the last walk gave to the callback -/
  said : Option (Nat × Nat) := none
  bad : Bool := false

/-- Changes one value. -/
def latSet {α : Type} (f : Nat → α) (k : Nat) (v : α) : Nat → α := fun j => if j = k then v else f j

/-- A thread goes on. -/
def LatState.goto (s : LatState) (t : Nat) (pc : LatPc) : LatState := { s with pcs := latSet s.pcs t pc }

/-- An item is freed. -/
def LatState.free (s : LatState) (i : Nat) : LatState := { s with items := latSet s.items i { s.items i with alive := false } }

/-- Something that must not happen. -/
def LatState.fail (s : LatState) : LatState := { s with bad := true }

/-- couch_latency.cc:62-75 `addItem`, with the item to register; what follows in the thread is given the result. -/
def latAddItem (s : LatState) (c i : Nat) (andThen : LatState → Nat → LatState) : LatState :=
  if s.live = false ∨ s.gen ≠ c ∨ (s.items i).alive = false then s.fail
  else
    match s.entry with
    | some j => andThen s j
    | none =>
      if s.walking = true then s.fail
      else andThen { s with entry := some i, items := latSet s.items i { s.items i with registered := true } } i

/-- couch_latency_internal.h:129: a call begins with the load of the instance. -/
def latBegin (s : LatState) (t : Nat) : Option LatState :=
  if s.pcs t = .idle then some (s.goto t (if s.coll then .enabled s.gen else .disabled)) else none

/-- couch_latency_internal.h:130-152: the next step of a thread. -/
def latStep (s : LatState) (t : Nat) : Option LatState :=
  match s.pcs t with
  | .idle => none
  | .disabled => some (s.goto t (if s.ptr.isSome then .nulling else .timer))
  | .nulling => some ({ s with ptr := none }.goto t .timer)
  | .enabled c =>
    match s.ptr with
    | none => some ({ s with items := latSet s.items s.next {}, next := s.next + 1 }.goto t (.adding c s.next true))
    | some i => some (s.goto t (.have c i))
  | .have c i =>
    if (s.items i).alive = false then some s.fail
    else some (s.goto t (if (s.items i).registered then .timer else .adding c i false))
  | .adding c i own => some (latAddItem s c i fun s r => s.goto t (.storing i own r))
  | .storing i own r => some ({ s with ptr := some r }.goto t (if own then .compare i else .timer))
  | .compare i => if s.ptr = some i then some (s.goto t (.moving i)) else some ((s.free i).goto t .timer)
  | .moving i =>
    match s.owner with
    | some o => some ({ s.free o with owner := some i }.goto t .timer)
    | none => some ({ s with owner := some i }.goto t .timer)
  | .timer => some (s.goto t (.running s.ptr))
  | .running _ => none

/-- couch_latency_internal.h:39-42 `add`: the function returns after the time `v`. -/
def latFinish (s : LatState) (t v : Nat) : Option LatState :=
  match s.pcs t with
  | .running none => some (s.goto t .idle)
  | .running (some i) =>
    if (s.items i).alive = false then some s.fail
    else some ({ s with items := latSet s.items i { s.items i with count := (s.items i).count + 1, sum := (s.items i).sum + v } }.goto t .idle)
  | _ => none

/-- couch_latency.cc:23-35 `init`. -/
def latStart (s : LatState) : LatState :=
  if s.coll then s else { s with coll := true, gen := s.gen + 1, live := true, entry := none }

/-- couch_latency.cc:42-60 `destroyInstance` up to the deletion of the collector, with `~CouchLatency`. -/
def latStopFree (s : LatState) : Option LatState :=
  if s.coll = false ∨ s.stopping = true then none
  else if s.walking = true then some s.fail
  else
    match s.entry with
    | none => some { s with live := false, stopping := true }
    | some e =>
      if (s.items e).alive = false then some s.fail
      else some { s with live := false, stopping := true, entry := none,
                         items := latSet s.items e { s.items e with registered := false, count := 0, sum := 0 } }

/-- couch_latency.cc:47: the instance becomes null. -/
def latStopNull (s : LatState) : Option LatState := if s.stopping then some { s with coll := false, stopping := false } else none

/-- couch_latency.cc:77-96, 102-112 `couchstore_get_latency_info` while the collection is on: what the callback gets. -/
def latReportBegin (s : LatState) : Option LatState :=
  if s.coll = false ∨ s.walking = true then none
  else if s.live = false then some s.fail
  else
    match s.entry with
    | none => some { s with walking := true, said := none }
    | some e =>
      if (s.items e).alive = false then some s.fail
      else some { s with walking := true, said := if (s.items e).sum = 0 then none else some ((s.items e).count, (s.items e).sum) }

/-- The end of the walk. -/
def latReportEnd (s : LatState) : Option LatState := if s.walking then some { s with walking := false } else none

/-- What can happen. -/
inductive LatAct where
  | begin (t : Nat)
  | step (t : Nat)
  | finish (t v : Nat)
  | start
  | stopFree
  | stopNull
  | reportBegin
  | reportEnd
deriving DecidableEq, Repr

def latAct (s : LatState) : LatAct → Option LatState
  | .begin t => latBegin s t
  | .step t => latStep s t
  | .finish t v => latFinish s t v
  | .start => some (latStart s)
  | .stopFree => latStopFree s
  | .stopNull => latStopNull s
  | .reportBegin => latReportBegin s
  | .reportEnd => latReportEnd s

/-- Executions: any order of the steps of all threads. -/
def latExec (s : LatState) : List LatAct → Option LatState
  | [] => some s
  | a :: as => (latAct s a).bind fun s => latExec s as

end Couchstore
