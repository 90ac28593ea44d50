import Verif.Model.Open

/-! The keys of the command line programs: src/program_getopt.cc.

The key store and the program `dump-keys` are not in the repository: the store is a list of keys and the active key, and `dump-keys` answers
`dump id`, the same for the whole run.  That it cannot be started (an exception) is not modelled. -/

namespace Couchstore

/-- program_getopt.h:58 `keyStore`. -/
structure ToolKeys where
  keys : List Kdk := []
  active : Option Kdk := none

/-- program_getopt.cc:71-94 `ProgramGetopt::lookup`; dbdump.cc:45-70 `lookup_encryption_key` is the same. -/
def toolLookup (dump : Bytes → Option Kdk) (id : Bytes) (st : ToolKeys) : Option Kdk × ToolKeys :=
  if id = [] then (st.active, st)
  else
    match st.keys.find? (fun k => k.id = id) with
    | some k => (some k, st)
    | none =>
      match dump id with
      | some k => (some k, { keys := k :: st.keys, active := some k })
      | none => (none, st)

/-- The store after the program has asked for these keys, in this order. -/
def toolStore (dump : Bytes → Option Kdk) (st : ToolKeys) : List Bytes → ToolKeys
  | [] => st
  | id :: ids => toolStore dump (toolLookup dump id st).2 ids

/-- The answers to these questions. -/
def toolAnswers (dump : Bytes → Option Kdk) (st : ToolKeys) : List Bytes → List (Option Kdk)
  | [] => []
  | id :: ids => (toolLookup dump id st).1 :: toolAnswers dump (toolLookup dump id st).2 ids

end Couchstore
