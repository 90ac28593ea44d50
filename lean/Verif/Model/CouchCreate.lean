import Verif.Model.Crc

/-!
Model of /repo/src/couch_create.cc: the program that fills the files of vbuckets with generated documents.

Of the library the calls are modelled that the program makes for each file, and of their results only those that it looks at: an argument
tells for each vbucket whether its file can be opened and whether it has the document that tells its state.  Documents are their
keys; bodies and metadata are not modelled.  A flusher is a sequential program; what the others do is seen only in the number of vbuckets that
they still manage, which is an argument.  The parsing of options and the messages are not modelled.  Values of time are not.
-/

namespace Couchstore

/-- couch_create.cc:51 `VBucketState`. -/
inductive VbKind where
  | active
  | replica
  | unmanaged
deriving DecidableEq, Repr

/-- couch_create.cc:441-455: the parameters that matter here.  `pre` are the bytes of the collection in front of the keys (:865-866, 878-882). -/
structure CreateParams where
  reuse : Bool := false
  vbc : Nat := 1024
  keyCount : Nat := 0
  keysPerVb : Bool := false
  perFlush : Nat := 512
  startKey : Nat := 0
  pre : Bytes := [0]
deriving DecidableEq, Repr

/-- couch_create.cc:83-85, 115-117: the vbuckets after `-v`: those that `resize` adds are `VB_ACTIVE`, whose value is 0. -/
def createVbuckets (vbc : Nat) : List VbKind := (List.replicate 1024 VbKind.unmanaged).take vbc ++ List.replicate (vbc - 1024) VbKind.active

/-- How the reading of the list of vbuckets ends. -/
inductive CreateLoad where
  | ok (vbuckets : List VbKind) (managed : Nat)
  /-- it does not end -/
  | endless
  /-- the vector is accessed before its beginning -/
  | undefined
deriving DecidableEq, Repr

/-- couch_create.cc:179-203: the vbuckets of the command line, each with its number and its kind.  An argument is skipped only if it has
been used (:201). -/
def createList (vbc : Nat) : List (Int × VbKind) → List VbKind → Nat → CreateLoad
  | [], vbs, n => .ok vbs n
  | (v, kind) :: rest, vbs, n =>
    if v < (vbc : Int) then
      if v < 0 then .undefined else createList vbc rest (vbs.set v.toNat kind) (n + 1)
    else .endless

/-- couch_create.cc:178-209: the list, or all vbuckets. -/
def createLoad (vbc : Nat) (args : List (Int × VbKind)) : CreateLoad :=
  if args = [] then .ok (List.replicate vbc .active) vbc else createList vbc args (createVbuckets vbc) 0

/-- The twenty digits of `%020`. -/
def decDigits : Nat → Nat → Bytes
  | 0, _ => []
  | n + 1, k => decDigits n (k / 10) ++ [UInt8.ofNat (48 + k % 10)]

/-- couch_create.cc:884-886 (for numbers of less than 2^63): the key without its collection. -/
def createLogicalKey (k : Nat) : Bytes := 75 :: decDigits 20 k

/-- couch_create.cc:876-892: the key of the document. -/
def createKey (p : CreateParams) (k : Nat) : Bytes := p.pre ++ createLogicalKey k

/-- couch_create.cc:887-890: the vbucket of a key. -/
def createVbOf (p : CreateParams) (k : Nat) : Nat := (clientHashCrc32 (createLogicalKey k)).toNat % p.vbc

/-- What is asked of the library for one file. -/
inductive CreateCall where
  /-- `couchstore_open_db`, for reading only or creating -/
  | openFile (readOnly : Bool)
  /-- `couchstore_open_local_document` -/
  | readState
  /-- `couchstore_save_documents` -/
  | save (keys : List Bytes)
  | commit
  /-- `couchstore_save_local_document`: a replica or not, and the highest sequence number -/
  | saveState (replica : Bool) (high : Nat)
  | close
deriving DecidableEq, Repr

/-- What the library answers: the file can be opened; its state, if it has one, and whether it has `replica` in it; it can be opened again. -/
structure CreateFile where
  opens : Bool := true
  state : Option Bool := none
  reopens : Bool := true
deriving DecidableEq, Repr

/-- couch_create.cc:809-821 `VBucket`. -/
structure VbHandle where
  pending : List Bytes := []
  docCount : Nat := 0
  seq : Nat := 0
  got : Option Bool := none
deriving DecidableEq, Repr

/-- A vbucket of a flusher: its kind, its handle, the calls for its file, the documents that were counted as saved; `ub` if the vector of
documents was accessed beyond its end. -/
structure VbLocal where
  kind : VbKind
  handle : Option VbHandle := none
  calls : List CreateCall := []
  saved : Nat := 0
  ub : Bool := false
deriving DecidableEq, Repr

/-- couch_create.cc:624-664: opening; if it throws the vbucket is disabled (:903-912). -/
def createOpen (p : CreateParams) (f : CreateFile) (l : VbLocal) : VbLocal :=
  let l := { l with calls := l.calls ++ [CreateCall.openFile p.reuse] }
  if f.opens = false then { l with kind := .unmanaged }
  else
    let l := { l with calls := l.calls ++ [CreateCall.readState] }
    match f.state with
    | some r =>
      let l := { l with calls := l.calls ++ [CreateCall.close] }
      if p.reuse = false then { l with kind := .unmanaged }
      else
        let l := { l with calls := l.calls ++ [CreateCall.openFile false] }
        if f.reopens = false then { l with kind := .unmanaged } else { l with handle := some { got := some r } }
    | none => if p.reuse then { l with calls := l.calls ++ [CreateCall.close], kind := .unmanaged } else { l with handle := some {} }

/-- couch_create.cc:770-797 `save_docs`. -/
def createSave (l : VbLocal) (h : VbHandle) : VbLocal × VbHandle :=
  if h.pending = [] then (l, h)
  else ({ l with calls := l.calls ++ [CreateCall.save h.pending, .commit], saved := l.saved + h.pending.length }, { h with pending := [] })

/-- couch_create.cc:749-766 `add_doc`. -/
def createAdd (p : CreateParams) (l : VbLocal) (h : VbHandle) (key : Bytes) : VbLocal × VbHandle :=
  let l := if h.pending.length ≥ p.perFlush then { l with ub := true } else l
  let h := { h with pending := h.pending ++ [key], docCount := h.docCount + 1, seq := h.seq + 1 }
  if h.pending.length = p.perFlush then createSave l h else (l, h)

/-- couch_create.cc:666-673, 696-743 `~VBucket`, `set_vbstate`. -/
def createClose (l : VbLocal) (h : VbHandle) : VbLocal :=
  let (l, h) := createSave l h
  let replica := match h.got with
    | some r => r
    | none => l.kind ≠ .active
  { l with calls := l.calls ++ [CreateCall.saveState replica h.seq, .commit, .close], handle := none }

/-- couch_create.cc:895-928: a key of a vbucket that is managed. -/
def createVbKey (p : CreateParams) (f : CreateFile) (l : VbLocal) (key : Bytes) : VbLocal :=
  let l := if l.handle = none then createOpen p f l else l
  match l.handle with
  | none => l
  | some h =>
    let (l, h) := createAdd p l h key
    let l := { l with handle := some h }
    if p.keysPerVb = true ∧ h.docCount = p.keyCount then { createClose l h with kind := .unmanaged } else l

/-- The state of a flusher.  `managed` is its share of the number of managed vbuckets. -/
structure Flusher where
  locals : Nat → VbLocal
  managed : Int
  started : Bool := false

/-- couch_create.cc:875-930: one key. -/
def flusherKey (p : CreateParams) (files : Nat → CreateFile) (mine : List Nat) (f : Flusher) (k : Nat) : Flusher :=
  let v := createVbOf p k
  if v ∈ mine ∧ (f.locals v).kind ≠ .unmanaged then
    let l := createVbKey p (files v) (f.locals v) (createKey p k)
    { locals := fun w => if w = v then l else f.locals w,
      managed := if l.kind = .unmanaged then f.managed - 1 else f.managed,
      started := true }
  else f

/-- couch_create.cc:873-938: the loop over the keys, whose number `k` starts at zero (:861); `others` is the number of vbuckets that the
other flushers manage after each key. -/
def flusherLoop (p : CreateParams) (files : Nat → CreateFile) (mine : List Nat) (others : Nat → Nat) : Nat → Nat → Flusher → Flusher
  | 0, _, f => f
  | n + 1, k, f =>
    let f := flusherKey p files mine f k
    if f.started = true ∧ f.managed + others k = 0 then f else flusherLoop p files mine others n (k + 1) f

/-- couch_create.cc:867-875: how often the loop runs: from the start key up to the sum of it and the number of keys, which is a number of 64 bits. -/
def createRounds (p : CreateParams) : Nat :=
  ((if p.keysPerVb then 2 ^ 64 - 1 else p.keyCount) + p.startKey) % 2 ^ 64 - p.startKey

/-- couch_create.cc:1005-1014: the vbuckets of a flusher. -/
def flusherVbuckets (vbs : List VbKind) (flusher : Nat) : List Nat :=
  (List.range vbs.length).filter fun v => vbs[v]? ≠ some .unmanaged ∧ v % 8 = flusher

/-- couch_create.cc:855-941 `run`. -/
def flusherRun (p : CreateParams) (vbs : List VbKind) (files : Nat → CreateFile) (others : Nat → Nat) (flusher : Nat) : Nat → VbLocal :=
  let mine := flusherVbuckets vbs flusher
  let f := flusherLoop p files mine others (createRounds p) 0
    { locals := fun v => { kind := (vbs[v]?).getD .unmanaged }, managed := mine.length }
  fun v =>
    match (f.locals v).handle with
    | some h => createClose (f.locals v) h
    | none => f.locals v

/-- Where a flusher and the program are when it is started. -/
structure WakeState where
  /-- :857 -/
  started : Bool := false
  /-- the flusher: 0 before :857, 1 before the wait at :858, 2 waiting, 3 running -/
  flusher : Nat := 0
  /-- the program: 0 waits for `started` (:840-842), 1 before :843, 2 waits in `join` -/
  main : Nat := 0
deriving DecidableEq, Repr

/-- couch_create.cc:839-848, 855-858: a step of the flusher or of the program.  The program notifies without the mutex, and a notification
reaches only a thread that waits.  There are no wakeups without notification. -/
def wakeStep (s : WakeState) (flusher : Bool) : Option WakeState :=
  if flusher then
    match s.flusher with
    | 0 => some { s with started := true, flusher := 1 }
    | 1 => some { s with flusher := 2 }
    | _ => none
  else
    match s.main with
    | 0 => if s.started then some { s with main := 1 } else some s
    | 1 => some { s with main := 2, flusher := if s.flusher = 2 then 3 else s.flusher }
    | _ => none

def wakeRun (s : WakeState) : List Bool → Option WakeState
  | [] => some s
  | b :: bs => (wakeStep s b).bind (wakeRun · bs)

end Couchstore
