import Verif.Model.DbDump

/-! The program that compares two files: programs/dbdiff/dbdiff.cc.

Simplifications: a line is a record, which names the document and what differs, without the values; `diff` is set wherever a
line is printed, so it is the list of lines being not empty; the option `--quiet`, which suppresses the lines, is left out, and so
is `couchstore_db_info`, of which only the name of the file is used.  Keys are looked up as in the other programs. -/

namespace Couchstore

/-- What is said to differ. -/
inductive DiffField where
  | seq | rev | metaSize | cas | expiry | flags | flexCode | datatype | metaBytes | deleted | contentMeta | size
  | bodySize | body
deriving DecidableEq, Repr

inductive DiffLine where
  /-- dbdiff.cc:61-67 `print_missing`: the document is not in the first file (`true`) or not in the second one -/
  | missing (id : Bytes) (first : Bool)
  | differs (id : Bytes) (what : DiffField)
deriving DecidableEq, Repr

def diffIf (c : Prop) [Decidable c] (f : DiffField) : List DiffField := if c then [f] else []

/-- dbdiff.cc:102-195, the comparison of the metadata of the data service. -/
def diffMeta (a b : DocInfo) : List DiffField :=
  if a.revMeta.length ≠ b.revMeta.length then [.metaSize]
  else if 16 ≤ a.revMeta.length then
    diffIf (beDec (a.revMeta.take 8) ≠ beDec (b.revMeta.take 8)) .cas ++
    diffIf (beDec ((a.revMeta.drop 8).take 4) ≠ beDec ((b.revMeta.drop 8).take 4)) .expiry ++
    diffIf (beDec ((a.revMeta.drop 12).take 4) ≠ beDec ((b.revMeta.drop 12).take 4) ∧ a.deleted = false) .flags ++
    (if 16 < a.revMeta.length ∧ a.revMeta.length ≤ 18 then
      diffIf (byteAt a.revMeta 16 ≠ byteAt b.revMeta 16) .flexCode ++
      diffIf (byteAt a.revMeta 17 ≠ byteAt b.revMeta 17) .datatype
    else [])
  else diffIf (a.revMeta ≠ b.revMeta) .metaBytes

/-- dbdiff.cc:98-100, :157-161: `a_datatype`. -/
def diffDatatype (a b : DocInfo) : Nat :=
  if a.revMeta.length = b.revMeta.length ∧ 16 < a.revMeta.length ∧ a.revMeta.length ≤ 18 then byteAt a.revMeta 17 else 0

/-- dbdiff.cc:219: `compressed`. -/
def diffCompressed (a b : DocInfo) : Bool := diffDatatype a b / 2 % 2 == 0

/-- dbdiff.cc:153-168: of metadata of 17 bytes the byte after them is read; they are the last ones of their buffer
(couch_db.cc:1108-1133). -/
def diffBeyond (a b : DocInfo) : Bool := a.revMeta.length == 17 && b.revMeta.length == 17

/-- dbdiff.cc:76-230 `compare_docinfo`. -/
def diffInfo (a b : DocInfo) : List DiffField :=
  diffIf (a.dbSeq ≠ b.dbSeq) .seq ++ diffIf (a.revSeq ≠ b.revSeq) .rev ++ diffMeta a b ++
  diffIf (a.deleted ≠ b.deleted) .deleted ++ diffIf (a.contentMeta ≠ b.contentMeta) .contentMeta ++
  diffIf (a.physicalSize ≠ b.physicalSize ∧ diffCompressed a b = false) .size

/-- dbdiff.cc:284-298. -/
def diffData (x y : Bytes) : List DiffField :=
  if x.length ≠ y.length then [.bodySize] else diffIf (x ≠ y) .body

/-- dbdiff.cc:232-309 `compare_documents`, for the bodies that were opened; `none` is the exit with an error. -/
def diffBody (E : Env) (a b : DocInfo) (x y : Option Bytes) : Option (List DiffField) :=
  if a.deleted then some []
  else
    match x, y with
    | some x, some y =>
      if diffCompressed a b then
        match E.inflate x with
        | none => none
        | some x =>
          match E.inflate y with
          | none => none
          | some y => some (diffData x y)
      else some (diffData x y)
    | _, _ => none

/-- What the program does for one document. -/
inductive DiffOut where
  | lines (ls : List DiffLine)
  /-- the exit with an error -/
  | ends (ls : List DiffLine)
  /-- bytes outside a buffer are read -/
  | undefined
deriving DecidableEq, Repr

/-- `couchstore_open_document` without options. -/
def readStored (E : Env) (id : Bytes) (db : Db) : Option Bytes :=
  match openDocument E id false db with
  | .ok b _ => some b
  | .error _ _ => none

/-- dbdiff.cc:319-324: a document that is in both files. -/
def diffPair (E : Env) (a b : DocInfo) (x y : Option Bytes) : DiffOut :=
  if diffBeyond a b then .undefined
  else
    match diffBody E a b x y with
    | some fs => .lines ((diffInfo a b ++ fs).map (DiffLine.differs a.id))
    | none => .ends ((diffInfo a b).map (DiffLine.differs a.id))

/-- dbdiff.cc:311-331 `deep_compare`: any error is taken for a missing document. -/
def deepCompare (E : Env) (self other : Db) (d : DocInfo) : DiffOut :=
  match docinfoById E d.id other with
  | .ok o _ => diffPair E d o (readStored E d.id self) (readStored E o.id other)
  | .error _ _ => .lines [.missing d.id false]

/-- dbdiff.cc:333-364 `check_existing`. -/
def checkExisting (E : Env) (other : Db) (d : DocInfo) : DiffOut :=
  match docinfoById E d.id other with
  | .ok o _ => .lines (if o.deleted ≠ d.deleted then [.missing d.id true] else [])
  | .error e _ => if e = .docNotFound then .lines [.missing d.id true] else .ends []

inductive DiffState where
  | going (ls : List DiffLine)
  | failed (ls : List DiffLine)
  | undefined
deriving DecidableEq, Repr

/-- The callbacks return 0.  After an exit the walk goes on here, and the callback does nothing. -/
def diffCb (out : DocInfo → DiffOut) : ChangesCb DiffState := fun st d =>
  match st with
  | .going ls =>
    match out d with
    | .lines l => (.going (ls ++ l), none)
    | .ends l => (.failed (ls ++ l), none)
    | .undefined => (.undefined, none)
  | .failed ls => (.failed ls, none)
  | .undefined => (.undefined, none)

/-- How the program ends. -/
inductive DiffEnd where
  /-- status 0, "The content of the databases is the same" -/
  | same
  /-- status 1 -/
  | differ (ls : List DiffLine)
  /-- status 1, and an error -/
  | failed (ls : List DiffLine)
  | undefined
deriving DecidableEq, Repr

/-- One of the two walks (`couchstore_all_docs` in dbdiff.cc:381-385, :393-397). -/
def diffWalk (E : Env) (out : DocInfo → DiffOut) (st : DiffState) (db : Db) : DiffState :=
  match allDocs E none ⟨false, false, false⟩ (diffCb out) st db with
  | .ok (st, none) _ => st
  | .ok (.going ls, some _) _ => .failed ls
  | .ok (st, some _) _ => st
  | .error _ _ => .failed []

/-- dbdiff.cc:366-400 `diff` and the end of `main` (:447-454). -/
def diffDb (E : Env) (db1 db2 : Db) : DiffEnd :=
  match diffWalk E (deepCompare E db1 db2) (.going []) db1 with
  | .going ls =>
    match diffWalk E (checkExisting E db1) (.going ls) db2 with
    | .going ls => if ls.isEmpty then .same else .differ ls
    | .failed ls => .failed ls
    | .undefined => .undefined
  | .failed ls => .failed ls
  | .undefined => .undefined

/-- dbdiff.cc:402-455 `main`; the files are opened read only. -/
def diffMain (E : Env) (getKey : KeyGetter) (f1 f2 : File) : DiffEnd :=
  match openAtOffset E getKey none f1 with
  | none => .failed []
  | some db1 =>
    match openAtOffset E getKey none f2 with
    | none => .failed []
    | some db2 => diffDb E db1 db2

end Couchstore
