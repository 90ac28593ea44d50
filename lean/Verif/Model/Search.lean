import Verif.Model.Open

/-! The search for the first header that contains a sequence number (src/couch_db.cc). -/

namespace Couchstore

/-- couch_db.cc:2290-2299, the inner loop of `seekFirstHeaderContaining`: the first header at or after
`middle`.  The loop has no bound in the code: `.diverge` stands for going on after as many blocks as
the file has. -/
def firstHeaderFrom (E : Env) : Nat → Nat → DbM Nat
  | 0, _ => throw .diverge
  | fuel + 1, middle => fun db =>
    match seekOffset E middle db with
    | .ok () db' => .ok middle db'
    | .error e db' =>
      if e.code = Err.noHeader.code then firstHeaderFrom E fuel (middle + blockSize) db'
      else .error .logicError db'

/-- couch_db.cc:2335-2341: to the next header. -/
def forwardOrThrow (E : Env) : DbM Unit := fun db =>
  match seekDir E .forward db with
  | .ok () db' => .ok () db'
  | .error _ db' => .error .logicError db'

/-- couch_db.cc:2273-2350, the outer loop of `seekFirstHeaderContaining`.  `.diverge` stands for going
on after more rounds than the file has blocks. -/
def searchLoop (E : Env) (seqno : Nat) : Nat → Nat → Nat → DbM Unit
  | 0, _, _ => throw .diverge
  | fuel + 1, left, right => do
    if left > right then throw .logicError else
    let middle0 := (left + right) / 2
    let db ← get
    let middle ← firstHeaderFrom E (db.file.pos / blockSize + 1) (middle0 - middle0 % blockSize)
    if middle < left ∨ middle > right then throw .logicError else
    let headerSeqno := (← get).header.updateSeq
    if seqno < headerSeqno then
      if right = middle then pure () else searchLoop E seqno fuel left middle
    else if seqno > headerSeqno then
      if left = middle then forwardOrThrow E else searchLoop E seqno fuel middle right
    else pure ()

/-- couch_db.cc:2370 and 2380: `(void)seek(db, tipOffset)`. -/
def seekIgnored (E : Env) (offset : Nat) (db : Db) : Db :=
  match seekOffset E offset db with
  | .ok _ db' => db'
  | .error _ db' => db'

/-- couch_db.cc:2363-2385: on to the last header before the time `next`, or to `tip`. -/
def forwardBefore (E : Env) (tip next : Nat) : Nat → DbM Unit
  | 0 => throw .diverge
  | fuel + 1 => fun db =>
    if db.header.position < tip then
      match seekDir E .forward db with
      | .error e db' => .error e (seekIgnored E tip db')
      | .ok () db' =>
        if db'.header.timestamp ≥ next then
          match seekOffset E db.header.position db' with
          | .ok () db'' => .ok () db''
          | .error e db'' => .error e (seekIgnored E tip db'')
        else forwardBefore E tip next fuel db'
    else .ok () db

/-- couch_db.cc:2245-2386 `seekFirstHeaderContaining`; `std::invalid_argument` and `std::logic_error`
are both `.logicError`. -/
def seekFirst (E : Env) (seqno granularity : Nat) : DbM Unit := do
  if granularity = 0 then throw .logicError else
  let db ← get
  let tip := db.header.position
  searchLoop E seqno (tip / blockSize + 2) 0 tip
  let db' ← get
  if db'.header.position = tip ∨ granularity = 1 then pure () else
  let next := (db'.header.timestamp - db'.header.timestamp % granularity + granularity) % 2 ^ 64
  if db'.header.timestamp < next then forwardBefore E tip next (tip / blockSize + 2) else pure ()

end Couchstore
