import Verif.Model.Bytes
import Verif.Lemmas.Bytes
import Verif.Lemmas.Order
import Verif.Model.Node
import Verif.Lemmas.Node
import Verif.Spec.DocInfo
import Verif.Lemmas.DocInfo
import Verif.Props.Codec
import Verif.Model.Disk
import Verif.Lemmas.Disk
import Verif.Lemmas.Chunk
import Verif.Spec.Env
import Verif.Spec.Append
import Verif.Props.File
import Verif.Lemmas.Nonce
import Verif.Model.Btree
import Verif.Spec.Tree
import Verif.Lemmas.Tree
import Verif.Lemmas.Fold
import Verif.Lemmas.Modify
import Verif.Lemmas.Modify2
import Verif.Spec.Map
import Verif.Lemmas.Map
import Verif.Spec.Check
import Verif.Lemmas.Check
import Verif.Props.Btree
import Verif.Model.BtreeRead
import Verif.Spec.Look
import Verif.Lemmas.Read
import Verif.Props.Read
import Verif.Model.Reduces
import Verif.Model.Db
import Verif.Spec.Index
import Verif.Lemmas.Reduces
import Verif.Lemmas.Sort
import Verif.Lemmas.Entry
import Verif.Lemmas.SeqBatch
import Verif.Spec.Store
import Verif.Lemmas.Save
import Verif.Lemmas.Inv
import Verif.Lemmas.Ask
import Verif.Lemmas.Scan
import Verif.Lemmas.Count
import Verif.Lemmas.Local
import Verif.Lemmas.Multi
import Verif.Lemmas.Reach
import Verif.Lemmas.Saved
import Verif.Props.Save
import Verif.Props.Scan
import Verif.Lemmas.Pres
import Verif.Spec.Crash
import Verif.Model.Header
import Verif.Model.Open
import Verif.Lemmas.Header
import Verif.Spec.History
import Verif.Lemmas.Find
import Verif.Lemmas.Trace
import Verif.Lemmas.Safe
import Verif.Lemmas.Len
import Verif.Lemmas.Commit
import Verif.Lemmas.OpenDb
import Verif.Spec.HeaderBlock
import Verif.Lemmas.Intact
import Verif.Lemmas.Create
import Verif.Lemmas.Move
import Verif.Lemmas.History
import Verif.Lemmas.CommitAppend
import Verif.Props.Sample
import Verif.Props.Commit
import Verif.Props.Open
import Verif.Model.Flags
import Verif.Props.Flags
import Verif.Model.MergeSort
import Verif.Lemmas.MergeSort
import Verif.Props.Sort
import Verif.Model.FileMerger
import Verif.Spec.Merge
import Verif.Lemmas.FileMerger
import Verif.Props.Merge
import Verif.Model.Crc
import Verif.Spec.Crc
import Verif.Lemmas.Crc
import Verif.Lemmas.Damage
import Verif.Props.Crc
import Verif.Model.IoBuffer
import Verif.Model.Search
import Verif.Spec.Buffer
import Verif.Lemmas.IoBuffer
import Verif.Lemmas.ReadCache
import Verif.Lemmas.BufferOps
import Verif.Lemmas.BufferRun
import Verif.Props.Buffer
import Verif.Spec.Purge
import Verif.Lemmas.Purge
import Verif.Props.Purge
import Verif.Spec.Search
import Verif.Lemmas.Search
import Verif.Props.Search
import Verif.Model.Compact
import Verif.Spec.Compact
import Verif.Lemmas.Compact
import Verif.Lemmas.CompactAsk
import Verif.Lemmas.CompactRewrite
import Verif.Props.Compact
import Verif.Props.Rewrite
import Verif.Model.Replay
import Verif.Spec.Replay
import Verif.Lemmas.Replay
import Verif.Lemmas.ReplayRun
import Verif.Lemmas.Grown
import Verif.Props.Replay
import Verif.Model.FileSorter
import Verif.Spec.FileSorter
import Verif.Lemmas.FileSorter
import Verif.Lemmas.SorterFiles
import Verif.Lemmas.SorterSched
import Verif.Lemmas.SorterData
import Verif.Lemmas.SorterProgress
import Verif.Lemmas.SorterOwn
import Verif.Props.FileSorter
import Verif.Model.Quicksort
import Verif.Lemmas.Quicksort
import Verif.Props.Quicksort
import Verif.Model.Collate
import Verif.Spec.Collate
import Verif.Lemmas.Collate
import Verif.Lemmas.CollateOrder
import Verif.Props.Collate
import Verif.Model.ViewCodec
import Verif.Spec.ViewCodec
import Verif.Lemmas.ViewCodec
import Verif.Props.ViewCodec
import Verif.Model.ViewReduce
import Verif.Spec.ViewReduce
import Verif.Lemmas.ViewReduce
import Verif.Model.ViewGroup
import Verif.Spec.ViewGroup
import Verif.Lemmas.ViewPurge
import Verif.Lemmas.Reducers
import Verif.Props.ViewReduce
import Verif.Lemmas.ViewGroup
import Verif.Props.ViewGroup
import Verif.Model.SortedList
import Verif.Model.IndexHeader
import Verif.Spec.IndexHeader
import Verif.Lemmas.IndexHeader
import Verif.Props.IndexHeader
import Verif.Spec.Update
import Verif.Lemmas.Update
import Verif.Lemmas.Update2
import Verif.Model.ViewUpdate
import Verif.Spec.ViewUpdate
import Verif.Lemmas.ViewUpdate
import Verif.Lemmas.ViewUpdate2
import Verif.Lemmas.ViewUpdate3
import Verif.Lemmas.ViewUpdate4
import Verif.Props.ViewUpdate
import Verif.Model.ViewCompact
import Verif.Lemmas.ViewCompact
import Verif.Props.ViewCompact
import Verif.Props.ViewSort
import Verif.Model.Walk
import Verif.Spec.Walk
import Verif.Lemmas.Walk
import Verif.Props.Walk
import Verif.Model.Stream
import Verif.Spec.Stream
import Verif.Lemmas.Stream
import Verif.Props.Stream
import Verif.Model.Arena
import Verif.Spec.Arena
import Verif.Lemmas.Arena
import Verif.Props.Arena
import Verif.Model.Os
import Verif.Spec.Os
import Verif.Lemmas.Os
import Verif.Props.Os
import Verif.Model.Recover
import Verif.Spec.Recover
import Verif.Lemmas.Recover
import Verif.Lemmas.RecoverFill
import Verif.Props.Recover
import Verif.Model.Spatial
import Verif.Spec.Spatial
import Verif.Lemmas.Spatial
import Verif.Lemmas.SpatialTree
import Verif.Lemmas.SpatialRead
import Verif.Lemmas.ZOrder
import Verif.Props.Spatial
import Verif.Model.Stats
import Verif.Spec.Stats
import Verif.Lemmas.Stats
import Verif.Props.Stats
import Verif.Model.Dbck
import Verif.Spec.Dbck
import Verif.Lemmas.DbckWalk
import Verif.Lemmas.DbckRewind
import Verif.Lemmas.Dbck
import Verif.Props.DbckSample
import Verif.Props.Dbck
import Verif.Model.CouchCheck
import Verif.Spec.CouchCheck
import Verif.Lemmas.CouchCheck
import Verif.Lemmas.CouchCheckDb
import Verif.Lemmas.CouchCheckPass
import Verif.Lemmas.CouchCheckOpen
import Verif.Props.CouchCheck
import Verif.Model.ViewTools
import Verif.Spec.ViewTools
import Verif.Lemmas.ViewTools
import Verif.Lemmas.ViewToolsArgs
import Verif.Props.ViewTools
import Verif.Model.DbInfoTool
import Verif.Spec.DbInfoTool
import Verif.Lemmas.DbInfoTool
import Verif.Lemmas.DbInfoToolOpen
import Verif.Props.DbInfoTool
import Verif.Model.DbDump
import Verif.Spec.DbDump
import Verif.Lemmas.DbDump
import Verif.Props.DbDump
import Verif.Model.CompactHook
import Verif.Model.CompactTool
import Verif.Spec.CompactHook
import Verif.Spec.CompactTool
import Verif.Lemmas.CompactHook
import Verif.Lemmas.CompactTool
import Verif.Props.CompactHook
import Verif.Props.CompactTool
import Verif.Model.SpatialGroup
import Verif.Spec.SpatialGroup
import Verif.Lemmas.SpatialGroup
import Verif.Props.SpatialGroup
import Verif.Spec.Reader
import Verif.Lemmas.Reader
import Verif.Props.Reader
import Verif.Lemmas.ReaderCompact
import Verif.Props.ReaderCompact
import Verif.Props.FileMap
import Verif.Props.ViewMerge
import Verif.Props.OsWin
import Verif.Props.Latency
import Verif.Props.CouchCreate
import Verif.Props.DumpHeaders
import Verif.Props.DumpLocal
import Verif.Props.TreeDump
import Verif.Props.DumpIndex
import Verif.Props.DbDiff
import Verif.Props.Hex2bin
import Verif.Props.Recommit
import Verif.Props.ToolKeys
