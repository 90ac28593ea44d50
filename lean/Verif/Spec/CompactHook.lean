import Verif.Model.CompactHook
import Verif.Spec.Compact

/-! Vocabulary for the properties of the hooks of compaction. -/

namespace Couchstore

/-- What a hook may do to the new file before its commit: save documents and local documents and set the purge sequence number, each
with success or not. -/
inductive HookCalls (E : Env) : Db → Db → Prop where
  | refl {a : Db} : HookCalls E a a
  | step {a b c : Db} : HookCalls E a b → Step E b c → HookCalls E a c
  | setPurgeSeq {a b : Db} (n : Nat) : HookCalls E a b → HookCalls E a (after (setPurgeSeq n) b)

/-- The purge sequence number of the new file, unless a hook sets it. -/
def purgeSeqOf {υ : Type} (c : Compaction υ) : Nat :=
  if c.dropDeletes then c.source.header.purgeSeq + 1 else c.source.header.purgeSeq

end Couchstore
