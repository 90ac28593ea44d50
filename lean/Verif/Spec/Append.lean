import Verif.Model.Disk

/-! Vocabulary for the properties of the file layer. -/

namespace Couchstore

/-- One further append through the library; its outcome is ignored. -/
inductive AppendOp where
  | buf (b : Bytes)
  | compressed (b : Bytes)
  | header (type : UInt8) (b : Bytes)

/-- The file after one append, successful or not. -/
def AppendOp.run (E : Env) (f : File) : AppendOp → File
  | .buf b => match dbWriteBuf E b f with | .ok _ g => g | .error _ g => g
  | .compressed b => match dbWriteBufCompressed E b f with | .ok _ g => g | .error _ g => g
  | .header t b => match writeHeader E t b f with | .ok _ g => g | .error _ g => g

/-- Any number of appends. -/
def runAppends (E : Env) (f : File) (ops : List AppendOp) : File := ops.foldl (AppendOp.run E) f

/-- The result is either `b` or an error; if no raw operation misbehaves it is `b`. -/
def ReadsAs (m : M Bytes) (f : File) (b : Bytes) : Prop :=
  (∀ r g, m f = .ok r g → r = b) ∧ (f.faults = [] → ∃ g, m f = .ok b g)

end Couchstore
