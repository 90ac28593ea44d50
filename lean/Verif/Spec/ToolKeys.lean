import Verif.Model.ToolKeys

/-! What the programs rely on for keys.  Used by the property theorems. -/

namespace Couchstore

/-- `dump-keys` gives the key that was asked for. -/
def DumpOk (dump : Bytes → Option Kdk) : Prop := ∀ id k, dump id = some k → k.id = id

end Couchstore
