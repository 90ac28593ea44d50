import Verif.Model.Recover
import Verif.Spec.Store

/-! What damage to a file is, and which documents it destroys.  Used by the property theorems. -/

namespace Couchstore

/-- The file `f` is the file `f0` after some bytes of it have changed (any number of them, anywhere), and the
changes are noticed: where reading a chunk of `f0` gives a content, reading it from `f` gives the same content
or fails.  (This is what the checksums are for; they do not notice everything.)  The operating system reads
what is there. -/
structure DamagedFile (E : Env) (f0 f : File) : Prop where
  cfg : f.cfg = f0.cfg
  length : f.disk.length = f0.disk.length
  faults : f.faults = []
  noticed : ∀ p b b' g g', preadBin E p { f0 with faults := [] } = .ok b g → preadBin E p f = .ok b' g' → b' = b

/-- Is the document beyond recovery?  A handle of the damaged file does not find it by its sequence number, or it
has a body that cannot be read. -/
def lost (E : Env) (db : Db) (d : DocInfo) : Bool :=
  match answer (docinfoBySequence E d.dbSeq) db with
  | .error _ => true
  | .ok _ => decide (d.bp ≠ 0) && (answer (openDocWithDocinfo E d false) db).toOption.isNone

/-- A filter that drops nothing, does not want to see bodies and never fails. -/
def KeepsAll {υ : Type} (flt : Option (CompactFilter υ)) : Prop :=
  ∀ g, flt = some g → ∀ u d b, (g u d b).2 = .keep

/-- The metadata that the callback gives back fits into an index (where it is less than 2^28 bytes with the id). -/
def RewritesFit {υ : Type} (rw : Option (DocInfoRewrite υ)) : Prop :=
  ∀ w, rw = some w → ∀ u d b d', d.id.length < 4096 → (w u d b).2 = some d' → 23 + d.id.length + d'.revMeta.length < 2 ^ 28

end Couchstore
