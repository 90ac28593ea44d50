import Verif.Model.Node

/-! Specification vocabulary: the documented limits on a document's metadata. -/

namespace Couchstore

/-- The numeric fields fit the widths documented in couch_common.h and the file format:
48 bit sequence and revision numbers, 8 bit content flags, a body position below 2^47
(bit 47 is the deleted flag), a stored size below 2^28, an id of at most 4095 bytes. -/
structure DocInfo.Fits (d : DocInfo) : Prop where
  id : d.id.length < 4096
  dbSeq : d.dbSeq < 2 ^ 48
  revSeq : d.revSeq < 2 ^ 48
  contentMeta : d.contentMeta < 256
  bp : d.bp < 2 ^ 47
  physicalSize : d.physicalSize < 2 ^ 28

end Couchstore
