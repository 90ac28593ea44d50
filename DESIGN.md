# Formal model of couchstore: design

The model is written in Lean 4 under `lean/Verif/`.  It is a function by function
transcription of the parts of `/repo/src` named below into total, computable Lean
functions; every definition cites the file and lines it models and says where it
simplifies.

| directory | content |
|---|---|
| `Verif/Model` | the model of the code |
| `Verif/Spec` | small specifications and vocabulary used to state the properties: maps, questions and answers of the read API, file histories, crash images, integrity checker |
| `Verif/Props` | the property theorems (all in the namespace `Couchstore.Props`, named `Cnn_...`), each followed by an `example` or by sample histories that meet its hypotheses |
| `Verif/Lemmas` | proofs |

`properties.jsonl` lists the properties in English, `MANIFEST.json` maps them to
theorems and gives their status, `seeded/LOG.jsonl` records the wrong programs that the
theorems were tested against.

## Trusted base

* Lean's kernel (4.33.0).  No `sorry`, no axioms of our own, no `native_decide`, no
  `bv_decide`, no `unsafe`, no `implemented_by`.  Every theorem depends on no other
  axioms than `propext`, `Classical.choice` and `Quot.sound` (a number of the purely
  computational ones depend on fewer).  Concrete witnesses are evaluated by the kernel
  (`decide +kernel`), which adds no axiom.
* The reading of the C++ source: that the definitions in `Verif/Model` do what the cited
  lines do, with the simplifications given in the comments and below.
* The laws of external libraries, which are fields of the structure `Env.Laws`
  (`Model/Disk.lean`) and hypotheses of the theorems: uncompressing compressed data gives
  it back; decrypting with the key and nonce of the encryption gives the plain text;
  the cipher text is as long as the plain text and the tag has a fixed size.  Nothing is
  assumed about checksums except in C25, where the CRC-32 table of `crc32.cc` is proved
  to compute CRC-32, and the CRC-32C library is assumed to compute CRC-32C.  `Env.toy`
  is an instance of the laws.
* The model of the machine: see "Files and failures" and "Crashes".

## Modelling decisions

**Numbers.**  Bytes are `List UInt8`; offsets and lengths are `Nat`.  Where the code
stores a number in a fixed number of bits the model encodes it in exactly that number of
bytes and so truncates exactly as the code does; theorems carry explicit "fits in the
field" hypotheses (`SaveArgs`, `LocalArgs`, ...).  Where the code would silently store a
truncated number because a file or chunk is too large (2^48 bytes, 2^31 bytes,
2^28 bytes) the model stops with the distinct outcome `formatLimit`; "succeeds" theorems
say "or `formatLimit`".

**Undefined behaviour and assertion failures** are the distinct outcomes `logicError`
and `assertFail`; endless recursion on cyclic data (the code has no cycle check) is the
distinct outcome `diverge`, by fuel.  The theorems show that they do not occur where the
property excludes them.

**Files and failures.**  An operation is a function from a state to `ok value state` or
`error code state`; the state survives errors, so partial effects are visible.  The file
has its bytes, the handle's append position and options, a finite list of injected
misbehaviours of the raw operations and an event log.  Each raw read, write and sync
consumes one entry of the list: it works, it is short, or it fails with any code.  So a
theorem about an arbitrary file state is a theorem about every pattern of failures, and
"the list is empty" means that nothing fails any more.

**Crashes** (`Spec/Crash.lean`).  After a crash the content of the file is any image in
which each byte has the value of the last successful sync or any value written to it
since, independently of the other bytes; the length is between the synced and the written
length.  A successful sync is assumed to make all earlier writes durable, also those for
which an earlier sync had failed.  (A torn or reordered write is thus covered; a storage
that destroys bytes that were not written to is not.)  Renames and directory entries are
not modelled: the file exists.

**Histories** (`Spec/History.lean`).  `History` generates all states that a file can be
in: creation, compaction of another file or recovery from a damaged one; saves, local saves, purge sequence, commits,
moves to other headers, closing and reopening, failing at any raw operation, and crashes
at any raw operation, in any order and number.  A handle that a failed operation has
closed is not used again.  Theorems about "reachable" databases quantify over it.

**Questions** (`Spec/Store.lean`).  "Every read returns the same" means: for every
`Query` (document by id or sequence, bodies, change feed, all documents, several
documents, ranges, count of changes, local documents, statistics) the `Reply` is the
same.

## What is modelled

| file of /repo/src | model | parts |
|---|---|---|
| bitfield.cc, bitfield.h, internal.h (on-disk structs) | Model/Bytes, Node, Header | all codecs in use |
| node_types.cc, node_types.h, util.cc | Model/Node, Btree | records, pointers, comparisons |
| couch_file_read.cc, couch_file_write.cc | Model/Disk | all, plain and encrypted, compressed; also `write_header` |
| crc32.cc | Model/Crc | all |
| btree_read.cc | Model/BtreeRead | lookups, folds, several ranges, the tolerant mode of node reading |
| btree_modify.cc | Model/Btree | modify_btree with all actions, purge during guided purge, finish_root, chunking |
| reduces.cc | Model/Reduces | by-id and by-seq |
| couch_db.cc | Model/Db, Header, Open, Search, Walk | opening, creation, header search, recovery, commit, rewind, fast forward, seek, search for a sequence number, all readers of documents and local documents, local saves, statistics, count of changes, walks over the trees; flags |
| couch_save.cc | Model/Db | all |
| tree_writer.cc, merge_sort.h, db_compact.cc | Model/Compact, CompactHook, Recover, MergeSort, Replay | compaction with drop-deletes, upgrade, filter, rewriting of metadata, hooks that write to the new file; recovery mode; replay; the tree writer; merge sort at the level of tapes |
| stream.cc, tree_writer.cc (records) | Model/Stream | streams on the raw file operations in checksummed or encrypted chunks; reading and writing of records |
| os.cc | Model/Os | all; what the system calls answer is an argument.  The models of the database do not use it: their raw operations are the parameters described above |
| os_win.cc | Model/OsWin | all except the flags of `open`, `goto_eof` and `advise`; what the system answers is an argument |
| couch_latency.cc, couch_latency_internal.h | Model/Latency | all, as a transition system of any number of threads in one function of the API; a histogram is the number of its values; memory is sequentially consistent |
| arena.cc | Model/Arena | all except the checks of a debug build; what `malloc` returns is an argument |
| file_merger.cc | Model/FileMerger | all |
| views/file_merger.cc | Model/ViewMerge | merging of the files of both kinds of index; the sorting of files of spatial views is that of file_sorter.cc |
| file_sorter.cc | Model/FileSorter | all, as a transition system of three threads; records, their comparison and the sorting in memory are parameters; `fclose` and allocation do not fail |
| quicksort.c | Model/Quicksort | the fallback; exchanging elements word by word and the depth of the stack are not modelled |
| views/collate_json.cc | Model/Collate | all; `strtod`, ICU and the signedness of `char` are parameters; failures of ICU and of allocation are not modelled |
| views/keys.cc, values.cc, reductions.cc, bitmap.cc, util.cc | Model/ViewCodec | all codecs, comparison and merging of records |
| views/reducers.cc, mapreduce | Model/ViewReduce, Model/Stats | the reductions of both kinds of index, `_count`, `_sum`, `_stats` (floating point as a parameter with laws); not reduce functions in JavaScript |
| views/purgers.cc | Model/ViewReduce | all |
| views/view_group.cc | Model/ViewGroup, IndexHeader, ViewUpdate, ViewCompact | building of an index from sorted records, cleanup, update and compaction of a group, reading and writing of the header |
| views/spatial.cc, spatial_modify.cc, view_group.cc (spatial indexes) | Model/Spatial, Model/SpatialGroup | all but the cleanup of a group with spatial views; the arithmetic that maps a box to a point of the grid is a parameter |
| views/compaction.cc | Model/ViewCompact | all; the progress callback of a compaction is not modelled |
| views/index_header.cc | Model/IndexHeader | all; memory is allocated without failure |
| views/sorted_list.cc | Model/SortedList | adding, looking up, removing; not the iterators, which walk the list |
| iobuffer.cc | Model/IoBuffer | all except the tracing and timers |
| couch_cxx_util.cc | Model/Replay, DbInfoTool | openDocument, scanLocalDocs, openDatabase |
| dbck.cc | Model/Dbck | recovery of a file, with stale commits; the three handles of the damaged file are one; not the messages and the arguments |
| tracking_file_ops.cc | Model/FileMap | what is recorded about the reads; not the colours and the printing |
| compactor.cc | Model/CompactTool | all except the parsing of the command line and the messages |
| couch_create.cc | Model/CouchCreate | the list of vbuckets, the keys and their distribution, the calls of the library for each file, the start of the threads; not the options, bodies, metadata and messages, nor what the library does |
| check.cc | Model/CouchCheck | checking a file that is named on the command line; the callbacks that end the program end the walk; the handle that the callbacks read with is a copy, so raw operations must not fail; not the messages and the arguments |
| views/view_group.cc (`couchstore_read_view_group_info`), views/bin | Model/ViewTools | what the five tools read from their standard input, up to the call of the library; `fgets`, `fread`, `sscanf` are modelled; memory is available up to 2^63 bytes; not the listener for the end of the input |
| dbinfo.cc, couch_cxx_util.cc (`openDatabase`) | Model/DbInfoTool | opening at a position and printing of one header or of all in a direction; the lines are records; not the sizes of the three trees, what is printed once per file, and the arguments |
| dbdump.cc | Model/DbDump | dumping the documents of a file, by sequence number, by id or by key, as text or JSON, with or without bodies; the lines are records; JSON, extended attributes and the names of collections are those of other libraries, of which nothing is assumed; not the layout of the output, hexadecimal output, trees, index files and the arguments |
| dbdump.cc | Model/DumpHeaders | the walk over all headers; what is printed of the headers themselves is left out |
| dbdump.cc | Model/DumpLocal | dumping the local documents, all of them or one; what the data service decodes and what is JSON are parameters |
| dbdump.cc | Model/TreeDump | dumping the trees with their nodes; how names with a collection are decoded is a parameter |
| dbdump.cc | Model/DumpIndex | dumping the index file of a view group: the search for the header, the header and the rows of the views; errors in opening the file are left out |
| programs/dbdiff/dbdiff.cc | Model/DbDiff | all but the arguments, `--quiet` and the values that are printed |
| programs/hex2bin/hex2bin.cc | Model/Hex2bin | all but errors of writing; the input is given as its lines |
| programs/recommit/recommit.cc | Model/Recommit | all but the reading of the arguments |
| src/program_getopt.cc, src/dbdump.cc (`lookup_encryption_key`) | Model/ToolKeys | the search for keys; the key store and `dump-keys` are not in the repository, their behaviour is assumed |

The parts not modelled are: the streams on the C library's `FILE` in `stream.cc`, tracing wrappers, command line tools (the rest of `dbdump.cc`,
`couchscript.cc`), the rest of the view engine (`views/`; of its programs in `views/bin` only what they read is modelled), changes that a filter of a
compaction makes to the document info it is shown, the file system calls around compaction (temporary names, rename, unlink),
`getByIdRoot`-like accessors, file statistics, the bindings in `python/`.  In the models of the database memory is always available, except for the
budget of C38.  In the models of compaction and replay the
source is read with misbehaviours of its own and its bodies with further ones, not
interleaved with those of the target.

## Properties and how they are proved

| id | model | proof | status |
|----|-------|-------|---|
| C01 | bitfield codecs | round trip; lexicographic order by induction on the width | proved |
| C02 | read_kv/write_kv | round trip; bounds on arbitrary input; witness outside limits | proved |
| C03 | index values, docinfo readers | round trip for both indexes | proved |
| C04 | file read/write at byte level incl. block prefixes | induction over blocks | proved |
| C05 | saves and commit | frame property carried through every operation | proved |
| C06 | ebin_cmp, seq_cmp | total order laws | proved |
| C07 | modify_btree | simulation: contents of the tree = sequential fold of map operations | proved |
| C08 | modify_btree | executable integrity checker accepts the result | proved |
| C09, C10 | btree_read | induction on the tree predicate | proved |
| C11-C16, C18, C19, C33 | saves and readers | invariant `Inv` relating the three trees to lists of entries, kept by every step; `ask_eq`: every answer is computed from these lists | proved |
| C17 | count of changes | induction on the tree | proved |
| C20-C22 | commit, open, crash images | invariant over histories and the event log | proved |
| C23 | find_header, open | for every file content | proved |
| C24 | moves | same invariant as C20 | proved |
| C25 | crc32 | the update of the state is linear and injective; the table is checked by the kernel | proved |
| C26 | compaction | refinement on top of tree writer and merge sort | proved |
| C27 | merge sort | invariants on tapes | proved |
| C28 | file merger | invariant: output ++ heads ++ rests | proved |
| C29, C30 | I/O buffer | simulation between buffered and direct file | C29 partial (false for releases with pending writes), C30 proved |
| C31 | lookups with several ranges | false of the code: witness, and a single range | partial |
| C32 | search for a sequence number | false of the code: witness; sound; exact under conditions | partial |
| C34 | guided purge | false of the code when the root splits: witness; sound; exact if no node overflows | partial |
| C35 | nonces | invariant on the log of encryptions | proved |
| C36 | flags | bit arithmetic | partial (undefined for interval 0 and above 2^64-1024) |
| C37 | replay | refinement; false of the code for deleted local documents: witness | partial |
| C38 | term buffer | induction over the batch | proved |
| C39 | file sorter with two worker threads | invariants over all interleavings, a weight that every step lowers; false of the code if a worker fails: witnesses | partial |
| C40 | quicksort | loop invariant of the division into less, equal and greater; induction on the length | proved |
| C41 | order of JSON texts | mutual induction over values, with the rest of the texts as a parameter; false of the code for some escapes and bytes: witnesses | partial |
| C42 | codecs of keys, values, reductions, bitmaps and records of views | read (written x) = x, and the converse; bits of the number a bitmap stands for; cuts: induction over records; false of the code at some limits: witnesses | partial |
| C43 | reduce functions of the indexes by document id and of views, `_count`, `_sum` | the indexes are instances of the generic tree; a result is right for a list of values if it meets the specification, and right results combine; the C07 theorems give it for every history | proved |
| C44 | building an index from sorted records; cleanup of a group: purge callbacks, counts, masks | instance of the guided purge (C34) with a tally of the callbacks' state; induction over the views; false of the code for overflowing nodes: witness with the thresholds of the code | partial |
| C45 | header of an index file; build and cleanup of a whole group with its header | relations between a reader and what it takes from the bytes; refinement of the file to the group at a position, kept when the file grows; false of the code for long roots and short headers: witnesses; the cleanup as for C44 | partial |
| C46 | sorted lists | induction over the operations | proved |
| C47 | update of a whole group from record files in order: batches, purging on the way, masks, counts, header | refinement of a batch with purging to erase/insert/filter on the list; induction over the batches, with an invariant on what is applied and purged so far; induction over the views | proved |
| C48 | reading the records of an update, files that are cut | induction over the records; false of the code for a cut within a length: proved as a theorem | partial |
| C49 | compaction of a whole group into a new file: filter, rebuilt indexes, header, failures | a walk of the old tree gives the entries in order (C06); each is pushed into a tree under construction (C07) unless the filter drops it; induction over the views, with an invariant on both files | proved |
| C50 | update of a group from record files in any order | the sorter (C39, C40) composed with C47; the record decided by the last record of a key is the same after any permutation if no key comes twice; false of the code for a key that comes twice: witness run | partial |
| C51 | walks over the three trees: calls for nodes and documents, depths, sizes, reductions | the calls of a lookup with a node callback are determined by the tree (induction on its height, the calls found before the callback is quantified); depth tracking is balanced; the recorded sizes and reductions are those of `TreeAt` | proved |
| C52 | streams: reads, writes, flushes, seeks, records | the stream refines a file of bytes (Spec/Stream `ByteTape`): invariant "the file consists of non-empty chunks; the bytes left are the rest of the buffer and the chunks after the place" or "whole chunks in the file, the rest in the buffer"; induction on the rounds of the loops |
| C53 | streams on any file | invariant: what was delivered and the rest of the buffer are the contents of the chunks before the place; `Chunk` says what a right chunk is.  Partial: the full claim is false after an error and for a cut within a header |
| C54 | arenas: allocation, marks, freeing | invariant over all histories: chunks apart, blocks apart and inside, every mark is good for a suffix of the chunks and blocks |
| C55 | alignment and failure of allocations | by cases.  Partial: both parts of the claim are false of the code |
| C56 | writes on top of system calls | invariant over all runs: what is not synchronised is at most what the file has counted |
| C57 | validation of writes | invariant of the loop that reads back; the burst theorem of C25.  Partial: false of the code if reads fail |
| C58 | the loops for interrupted calls | induction on the answers.  Partial: false of the code for validation and for closing |
| C59 | compaction in recovery mode of a file in which any bytes have changed, provided that the checksums notice it (`DamagedFile`) | a traversal of a damaged index meets some of its entries and some errors (induction on the height of the tree); which entries it meets is what a lookup of their keys finds in the damaged file |
| C60 | compaction with the callback that rewrites metadata of documents | the kept entries carry the metadata that the callback gave (relation `Kept`); the answers of the new file are those of a copy with the original metadata (C26) with metadata exchanged |
| C61 | building of a spatial index from records in the order of the sorter; what the boxes in it are good for | invariant of a tree under construction: every pointer stands for a node with the smallest box around its records; the order on doubles is that of the numbers they stand for (`dblVal`); a search (Spec/Spatial `windowSearch`) that relies on the boxes finds the right records by induction on the height.  Partial: false of the code if a write fails |
| C62 | the order of records in a spatial index | the bits of the interleaved number are those of the recursive definition (Spec/Spatial `curve`); the order facts from the highest bit in which two positions differ |
| C63 | compaction of a spatial index | as C49, with the invariant of C61.  Partial: false of the code if a write fails |
| C64 | the builtin reduce function `_stats`, with its texts | invariant of the loops: count, sum, sum of squares, least and greatest of the values so far; what is printed is read again; then C43 for the whole index.  Partial: numbers are rounded to 6 digits at every level of the tree |
| C65 | the recovery tool: recovery by compaction (C59), then the stale commits, newest first | simulation of the walk through a stale commit's by-id index in the damaged file by the walk in the intact one; invariant of the loop: the target has what recovery found and versions from newer stale commits; the headers found are those of commits (C24).  The samples are evaluated step by step from handles written out |
| C66 | the program that checks a file | two files, the intact and the damaged one: if every node of an index can be read in the damaged file, all walks and lookups agree with those in the intact one; a walk from the smallest key without options fails unless every node can be read; every reading function is shown to agree, given that.  Crashes by C21 |
| C67 | the input of the view tools | readers as functions on the rest of the input; two relations between a reader and a text (it reads the text and no more; what it does on every proper prefix), with rules for sequences and loops |
| C68 | listing the headers of a file | the file after a crash is opened at a commit; every step of the loop goes from a commit to a commit (C24), with a descending or ascending position as measure; the commits that cannot be skipped are those that the links of the headers lead to, or all successful ones that have a header mark |
| C69 | dumping the documents of a file | the file after a crash is opened at a commit, whose handle is one of the invariant; the walk feeds the callback with the entries of the tree; an induction over them pairs documents and lines; the metadata is written with an encoder of its own in the specification |
| C70 | compaction whose callbacks write to the new file | the hook is a computation on the target that stands for saves and settings of the purge number; the target before it is a handle of the invariant and part of a history (C26), and so is what the hook makes of it; then the theorem on commit and reopening (C20) |
| C71 | the program that compacts a file, with its options for purging | the file after a crash is opened at a commit (C21); the program's filter decides from the document alone, which gives the purged documents and the highest sequence number by induction; then C70.  Partial: false of the code for the purge sequence number, negative times, the limit 0 and `--dropdeletes` |
| C72 | view groups with spatial views: build, update and compaction of the whole group | as C45, C47 and C49, with the invariant of C61 for the indexes of the views.  Partial: false of the code if a write fails, and for the cleanup mask after an update |
| C73 | a second handle that was opened on the file at any moment, while the writer goes on | the events of the history: every write of every call is at or after the append position of its beginning, or changes only the first byte of a block; so everything that a header refers to stays as it was, and the reader has the invariant of handles on every content of the file that it may see |
| C74 | the map of a file, for every sequence of reads | a read of current data adds to each block exactly the number of its bytes that are read; induction over the calls.  Partial: false of the code for old data, for reads without purpose and for full blocks (see the findings) |
| C75 | merging of operation files, from the bytes of the sources to the bytes of the destination; an update with merged files | C28 for the records with keys that can be compared (the merger does not look into records), C42 for reading and writing, C47 for the update.  Partial: false of the code if a file has several records for a key (see the findings) |
| C76 | the file operations on Windows | the number of writes in the log is at most the counter; case analysis.  Partial: writes are counted instead of bytes, and a closed file cannot be opened again (see the findings) |
| C77 | the collection of latencies | invariant of the transition system, for all interleavings; a measure for the number of steps.  Partial: safe only if the collection is started, stopped and read while no thread is in a call (see the findings) |
| C78 | the program that generates documents, as the calls for each file | what the loop does to a vbucket is a fold over its keys, also if it ends early, since then no vbucket is managed; induction over the keys.  Partial: false of the code for the start key, for lists with wrong numbers or more than 1024 vbuckets, and for the start of the threads (see the findings) |
| C79 | the loop of the dump over the headers | induction over the headers, with the move to the previous header of C22/C68 and the dump of one header of C69: the handle after a move answers as the commit it has moved to.  Partial: false of the code, `C79_complete_dump_fails` and `C79_failure_not_reported` |
| C80 | the dump of local documents | the theory of tolerant traversals of damaged trees (C59): what a traversal meets is what a lookup finds; the callback may fail.  For one key a tolerant lookup is the same as a strict one, by induction over the depth |
| C81 | the dump of the trees | the walks of C51 with the callback of the program; the callback never fails, and induction over the calls gives the lines and the number |
| C82 | the dump of an index file | the traversal of all entries of a view index (as in C49) with the callback of the program; induction over the blocks for the search.  Partial: false of the code, `C82_long_header_is_missed`, `C82_empty_view_is_undefined` and `C82_values_run_together` |
| C83 | comparing two files | the two walks as folds over the documents by id; what is found in the other file by the specification of reading; the comparison of a pair is shown to be the agreement of the specification.  Partial: false of the code, `C83_same_file_fails` and `C83_difference_is_missed` |
| C84 | reading a dump | the loop over the lines as a function of the state (bytes written, position, the last line's bytes, star); what a dump of bytes looks like is a relation of the specification with no reference to the program, and `hexdump -C -v` a function.  Induction on the relation; the function is shown to be in it |
| C85 | adding a commit | opening and commit as for C20 to C22; what a crash leaves is opened by the invariant of histories, of which the program is one more operation.  For options the roots in the header: every part of commit is shown to keep them |
| C86 | the key of a new file | the key store as a state, the questions of a program as a list.  Invariant: the store has only keys that `dump-keys` gave and that were asked for.  Partial: false of the code, `C86_older_key` |

## Findings: where the code does not do what one would expect

Proved as theorems (witnesses):

* Release of the I/O buffers drops pending writes (`C29_release_drops_writes`); commit releases them also
  after a failed header sync (couch_db.cc:774, `C29_release_after_failed_sync`); close ignores flush
  errors (`C29_close_loses_writes`).
* A ranges lookup with more than one range loses the second one (`C31_ranges_fail`).
* The search for the first header with a sequence number can miss it (`C32_search_misses`), and can report
  success for a number that no header contains (`C32_beyond_the_end`).
* Guided purge loses entries when the root splits (`C34_purge_loses_entries`), and `PURGE_PARTIAL` drops
  subtrees without purged entries (`C34_partial_without_purge_drops`).
* A nonce is used again when an encrypted append fails and is retried (`C35_failed_append_reuses_nonce`).
* The encoding of a sync interval is undefined for 0 and very large values and may round up
  (`C36_encode_undefined`, `C36_encode_rounds_up`).
* A local document deleted after the snapshot stays in the target of a replay
  (`C37_deleted_local_document_stays`).
* Sorting a file: a failed write of a worker goes unnoticed and records are lost while success is returned
  (`C39_worker_failure_unnoticed`), or the caller waits for ever (`C39_worker_failure_deadlock`); a failure of
  the final merge loses all records, because the source has been removed
  (`C39_final_failure_loses_records`); a temporary file of another process is merged into the output
  (`C39_stale_file_merged`); after 100000 temporary files in one process no sort succeeds
  (`C39_names_used_up`); the 32-bit count of the bytes in memory can wrap to zero, and an unsorted file is
  reported as sorted (`C39_size_wraps`).
* Comparing keys of views: `\f` is taken for the letter f (`C41_form_feed`), a character above 127 written as a
  `\u` escape for the one with the lower byte of its number (`C41_unicode_escape`); the modes that compare bytes
  compare them as `char`, so that, where it is signed, bytes above 127 come first (`C41_signed_bytes`).  On texts
  that are not JSON without whitespace, which the header excludes: an endless loop (`C41_not_json_endless`), all
  texts that begin with whitespace are equal (`C41_whitespace`).
* Formats of views: a partition number above 1023 overruns the bitmap (`C42_bitmap_overrun`); a JSON key of 64 KiB
  is read back as another key (`C42_long_json_key`); 65536 values for a key are counted as 0 and overrun the array
  (`C42_many_values`); 256 results of reduce functions are read as none (`C42_many_reductions`); a value by document
  id without views leaves the number of views unset (`C42_id_value_unset`); a record file cut inside of a length
  field is taken for a complete one (`C42_cut_unnoticed`); a record without key and value cannot be written or read
  (`C42_empty_record`); a record whose key is longer than the record is accepted (`C42_garbage_record`).
* Reduce functions: `_sum` fails for a number of more than 31 characters (`C43_long_number`); a view with 256 reduce
  functions stops the program at the first interior node (`C43_too_many_reducers`).  `_stats` prints with six digits
  (reducers.cc:337-340), at every level of the tree: a value of 7 digits is not the least of itself (`C64_rounded`), and
  the result depends on the shape of the tree (`C64_depends_on_tree`); a leaf whose entries have no values counts as one
  with the value 0 for the least and the greatest (`C64_no_values`).  Not modelled: `view_btree_reduce` reports success without a
  result if there is no memory for a decoded key.
* Recovery tool (dbck.cc): it looks through the by-id index of older commits only, never of the last one: when the
  index by sequence number is damaged, a document that can be read by its id is not recovered
  (`C65_readable_document_is_missing`), and a deleted one comes back as it was before
  (`C65_deleted_document_comes_back`; a tombstone without a body is not recovered from a stale commit either, since its body
  cannot be opened).  If compaction fails, with `--stale` the tool uses a null handle
  (`C65_failed_recovery_uses_null_handle`).  The result of saving a document is ignored, but the document counted (:220-226).  Rolled back
  commits of files without back pointers are found too; their documents come back, and since sequence numbers are used
  again after a rollback, saving them as they were takes valid documents out of the change feed (excluded by `StaleFits.seqs`).
  A damaged header ends the search.
- couch_check (C66) compares the number of documents in the two indexes, but never counts them: `callback` and
  `callback_and_access_document` (check.cc:40-58, 81-83) do not touch the counters, so both stay 0 and a mismatch is not noticed
  (`C66_index_mismatch_unnoticed`).  If the file cannot be opened, `print_error` (:32-38) asks the null handle for the last error
  (`C66_unopenable_file_uses_null_handle`).  A body that a caller has wrongly marked as compressed makes the program reject an
  intact file (`check_liar`).
- The tool that updates an index (C67) exits with status 0 without having done anything if its input ends within the header of the
  group (couch_view_index_updater.cc:139-143: `ret` is still COUCHSTORE_SUCCESS; `C67_cut_updater_reports_success`).  If the input of a
  build ends within the name of the last file, the shorter name is used (`C67_cut_name_is_used`); the same of the destination of a merge.
  A line that does not fit the buffer is no error, its end is taken for the next line (`C67_long_name_is_split`).  A reduce function of length 0 is
  refused, since `fread` of 0 bytes returns 0 (`C67_empty_reduce_function_is_refused`); the length of a reduce function is
  an `int` that is not checked, and 2^32-1 makes `fread` overrun a block of size 0 (`C67_negative_length_overruns`).
- The program that prints headers (C68) opens the file at its newest header, also when it is told to go forward in history
  (dbinfo.cc:101-140): then it prints the newest header only, instead of "all headers in the file", "oldest first"
  (`C68_forward_prints_one`).  The position of the oldest header has to be given with it, which only a run backward tells.
- The program that compacts (C71), with `--purge-before`, sets the purge sequence number of the new file to the highest one
  purged in this run, and to 0 if nothing is purged, also if it was higher in the source (compactor.cc:54-58;
  `C71_purge_number_lost`).  It ignores `--dropdeletes` then (`C71_drop_deletes_ignored`), takes the limit 0 for no limit
  (`C71_limit_of_zero`), a negative time for one later than all (`C71_negative_time`), and ends with an exception for times from
  2^31 on, which is the year 2038 (`C71_late_time_ends_the_program`).
- Merging operation files (C75): if a file has a removal and an insertion for a key, which an update allows, and a later file has only a
  removal, the merged file ends with the insertion (`C75_removal_is_lost`): of the records at the front of the files the newest is taken
  and all are dropped, then the insertion follows from the older file.  The destination is opened for appending, what is in it
  stays in front (`C75_old_destination_is_kept`).
- On Windows (C76) the result of `WriteFile`, which is 1, is added to the number of bytes that are not synchronised (os_win.cc:147): with a
  period of N bytes up to N - 1 writes of any size are not synchronised (`C76_bytes_not_counted`).  A write of 2^32 bytes asks for nothing
  to be written (`C76_huge_write`), and closing leaves the handle in the file, so that opening it again fails an assertion
  (`C76_not_reopened`).
- The collection of latencies (C77) must be started, stopped and read while no thread is in a call, which the header does not say.
  Starting it during a call can leave a freed item in the map (`C77_start_during_call`: couch_latency_internal.h:140 compares with the
  shared pointer, which another call may have cleared, instead of the result of `addItem`).  Stopping it frees the collector and items
  that calls use (`C77_stop_during_call`, `C77_restart_during_call`).  Reading walks the map without its mutex
  (`C77_report_during_call`), and a call that began before a stop may be counted after the next start (`C77_old_call_reported`).
- The program that generates documents (C78) ignores the start key (`C78_start_key_ignored`), makes nothing if there is one and the number
  of keys is for each vbucket (`C78_no_keys`), does not end if a vbucket of the list does not exist (`C78_endless`), fills vbuckets
  from 1024 on that are not listed (`C78_unlisted_managed`), and may wait forever for a thread that was notified too early
  (`C78_lost_wakeup`).  With `--reuse` the highest sequence number of the state is that of the new documents alone
  (`C78_files_partial`).
- The dump with `--iterate-headers` (C79) of a file whose first header is not at the beginning of the file (an encrypted file) prints
  everything and then reports a failure, because the move before the first header is `DB_NO_LONGER_VALID`, not `NO_HEADER`
  (`C79_complete_dump_fails`).  That the dump of a header fails is not reported (`C79_failure_not_reported`).
- The dump of an index file (C82) takes the last block that is marked as one of a header for the header.  All blocks of a header are
  marked, so a header of more than one block is missed (`C82_long_header_is_missed`).  A view without entries has no root, and a
  null pointer is dereferenced (`C82_empty_view_is_undefined`).  Of several values for a key those after the first are printed
  with the bytes of their lengths (`C82_values_run_together`).  What is printed as the id of a document is the emitted key, the
  documents are not named, and the number at the end is that of the last view.
- The program that compares two files (C83) takes a document for compressed if the bit for it is *not* set (dbdiff.cc:219), so it
  decompresses plain bodies, and a file with such a body cannot be compared with itself (`C83_plain_body_fails`,
  `C83_same_file_fails`).  Metadata after the first 18 bytes, such as the state of a durable write, is not compared, and of more than
  18 bytes neither are the 17th and 18th (`C83_difference_is_missed`).  Of metadata of 17 bytes the byte after the buffer is read.
- A dump of a file with an odd number of bytes, made by `hexdump` without options, has a last word with a zero byte that is not in the
  file; `hex2bin` writes it, although the last line of the dump gives the length (`C84_padded_word`).
- A program that opens files with the keys a, b and again a gives a file that it then creates the key b, since a key that is found in the
  store does not become the active one (program_getopt.cc:76-79, `C86_older_key`).  None of the programs here does that.
- The map of a file (C74): after a block that is skipped because it is current, `recordAccess` (tracking_file_ops.cc:283-287)
  does not advance, so that a block that is not read at all can be marked as old data (`C74_unread_is_marked`); a byte that was
  read in search of a header hides a later read of one byte (`C74_read_is_hidden`); a block read in two halves is shown as
  partial (`C74_read_full_is_not_shown`), and one of which some bytes are never read can be shown as full
  (`C74_shown_full_is_not_read`).
- An update of a view group with spatial views (C72) makes the new cleanup mask from the index by document id alone.  After an
  update with at least one record nothing is left to be cleaned up according to the header, although the spatial indexes still
  have their records of these partitions, and later compactions keep them (`C72_update_forgets_cleanup`).
- The program that dumps documents (C69) leaves out, in JSON, every document whose body is marked as compressed and cannot be
  decompressed; it is counted, and the status is 0 (dbdump.cc:606-614; `C69_json_leaves_out`).  A body that is marked as JSON and
  is none, in JSON, and a name that is none of a collection, end the program with an exception, which nobody catches: the documents after it are
  not printed (`C69_one_document_ends_the_dump`).  Not modelled: `printbuf` shows a byte from 128 on as `\xFFFFFF80`, since `char` is signed, and its
  output does not tell a backslash from an escape.
* Cleanup of views: indexes are built and compacted with nodes a third larger (view_group.cc:738-739, 1646-1647) than
  those of a cleanup (:965-966).  A root leaf between 7 KiB and 9.3 KiB is split by a cleanup that removes anything
  from it, and only the last of the pieces is kept: with the thresholds of the code a cleanup of one document's
  partition loses three of the four others and reports success (`C44_cleanup_loses_entries`).
* Index header: a root with a reduction of 65524 to 65535 bytes, which the index may have, is read back as no root, so
  that the index is silently empty (`C45_long_root_lost`; the size is kept in 16 bits, index_header.cc:376-381).  A header
  with fewer fields than it should have is read beyond its end (`C45_short_header_overruns`).  Seen: the size limit of
  20 MiB for headers is checked only by the reader; `snappy_uncompressed_length` is given the length with the signature
  (:61), and a corrupt header is reported as lack of memory (:70-72); build and cleanup of a group use buffered writes that
  are never flushed but by closing, which ignores errors, so that a header position can be reported for a header that was
  not written; the error of `goto_eof` is ignored in a cleanup (view_group.cc:1098).
* Update of views: a record file that ends within the length of a record is taken for a complete one, and the update
  succeeds without that record (`C48_cut_length_ignored`).  An index without records is not purged, although others of the
  group are.  What a record inserts into a partition that is being cleaned up stays if its batch is the last to come near
  it, and is purged otherwise.
* Update of views from files that are not in order: the sort is not stable, so that a removal and an insertion of one key
  in one file may change places, and an entry that the file inserts last is lost without an error (`C50_equal_keys_swapped`).
* Records with oversized keys are corrupted (`C02_kv_oversize_key_corrupts`,
  `C03_docinfo_disagree_large`); a key asked for twice in one lookup is reported missing the second time
  (`C09_repeated_key_reported_missing`).
* A seek whose raw read fails with the number of INVALID_ARGUMENTS leaves the handle showing an empty
  database (`C24_invalid_arguments_empties`).

* Spatial indexes: the error of one write at the end of a build is ignored (spatial_modify.cc:319); the build returns
  success, the records of that node are missing from the index, and the file they came from is removed
  (`C61_loses_records`).  `interleave_uint32s` accepts up to 16383 numbers, but gives nothing for 2048 and writes beyond its buffer
  for 2049 (`C62_many_numbers`; an index cannot have as many dimensions).

Seen while modelling, excluded by hypotheses or by the scope of the model:

* Replay: documents saved as-is with a sequence number not above that of the snapshot are missed; the
  start sequence number wraps at 2^48; a raw read error numbered like DOC_NOT_FOUND on a tombstone with a body
  makes replay drop the body (excluded by `Fault.err (-5) ∉ bodyFaults`).
* Compaction: physical sizes are not recomputed when encryption is added or removed; a filter that asks for
  the body of an entry without a body reads offset 0; with a filter the drop-deletes flag is ignored; a source
  of version 11 or less without upgrade gives a target without timestamps.
* Opening: a header of an unknown version stops even recovery; a block that starts at the last byte is
  ignored; in recovery mode a transient read error on the newest header silently selects an older one; a
  checksummed header without a body is read out of bounds.
* A file created with the legacy checksum and an encryption key cannot be read after reopening.
* The header of a new file is not synced: after a crash before the first commit the file may not open.
* After a failed sync a later successful commit relies on the operating system keeping dirty pages.
* Duplicate ids in one batch make duplicate keys; with as-is sequence numbers a document can replace the
  by-sequence entry of another one.  `SaveArgs` excludes both.
* `couchstore_docinfo_by_sequence` checks one root and follows the other; iterating over given documents ignores
  the deletes-only and no-deletes options.
* In the mode that tolerates corruption a negative result of the callback does not stop an iteration or a walk
  (couch_db.h says it does); the error is returned at the end.
* The consistency check of `check.cc` never counts: its callbacks do not increment `id_count` and `seq_count`, so that the
  comparison of the two trees compares 0 with 0.
* A save that fails still changes the sequence numbers in the caller's document infos.
* file_merger.cc ignores the result of closing the destination; a key twice in one file is output twice even
  with deduplication.
* file_sorter.cc: the results of `fclose` are ignored; the counter of the names is not protected by a lock; the
  job pointer is read without the lock after a read error.

* **Streams after an error** (C53).  `ChunkedStream::read` keeps its place in the old chunk when `read_chunk` throws, but the
  buffer already has the new contents.  A further read delivers bytes whose checksum was wrong or (encrypted) the
  undecrypted message (`C53_after_checksum_error`), or stops the program by the failed `Expects`
  (`C53_after_checksum_abort`).  The library itself does not read after an error.
* **Streams cut within a header** (C53).  `FileOpsStream::read` reports the end of the file also if it got some of the bytes,
  so a file that was cut within the header of a chunk is taken for a complete one (`C53_cut_header_unnoticed`).
* **Flush while reading** (C52).  `ChunkedStream::flush` drops the buffer, so a flush between reads skips the rest of the
  chunk (`C52_flush_skips`).  `C52_stream_is_tape` allows a flush only at the end of the file.
* **Streams and raw operations** (C52).  `FileOpsStream::write` loops for ever if `pwrite` returns 0 for ever; a raw read of 0
  bytes is taken for the end of the file.  The destructor does not flush.
* **Padding in a new chunk** (C55).  `arena_alloc` computes the padding from the current chunk.  If the block goes to a new chunk,
  which is aligned, the padding makes it misaligned (`C55_misaligned`).  This happens with `arena_alloc` alone, because sizes
  are not rounded up.
* **No memory in `arena_alloc`** (C55).  With padding, a failed allocation returns the padding as a pointer, 1 to 3 instead of null
  (`C55_failure_not_null`).  After a failed allocation the next position is past the end of the chunk, so a mark taken then is
  bogus: freeing from it frees everything and the assertion fails (`C55_mark_after_failure`).
* **Failed reads in write validation** (C57, C58).  The reads of `PosixFileOps::pwrite` that validate a write are not repeated when they are
  interrupted, and their failure is only noticed if tracing is on.  Then the rest of the buffer is what was on the stack, so the
  result is arbitrary (`C57_unread_accepted`, `C58_interrupted_validation`).  Without tracing, the result -1 is subtracted from
  the number of bytes that are left and the next read is to the byte in front of the buffer (`C57_read_error_overrun`); at the
  end of the file the loop does not end.
* **Invalid writes are not counted** (C56).  Bytes of a write that fails validation do not count for periodic synchronisation
  (`C56_invalid_not_counted`).
* **Closing again after a signal** (C58).  `PosixFileOps::close` repeats `close` if it was interrupted.  On Linux the descriptor has been
  released then and may be in use for another file (`C58_closed_twice`).
* **Recovery needs the local documents** (C59).  Compaction in recovery mode tolerates errors in the by-sequence index and in the
  bodies, but not in the index of the local documents: one damaged byte there, and no target is made, although all documents can be read
  (`C59_local_documents_block_recovery`).
