{"id": "C01", "title": "Fixed-width integers survive storage and keep their order", "statement": "Every integer the library stores (8 to 64 bits, big endian) reads back as the same number whenever it fits the field width, is reduced modulo the field width otherwise, and the byte-wise order of two encodings of the same width is the numeric order of the numbers.", "quantifier": "all field widths used on disk and all unsigned integers", "why_tests_cant": "the domain is 2^64 values per width, and order is a property of pairs", "anchors": ["src/bitfield.cc: encode_raw48/decode_raw48 and siblings", "src/util.cc: seq_cmp"]}
{"id": "C02", "title": "Key/value records round-trip and the reader never leaves its buffer", "statement": "A key of at most 4095 bytes and a value of less than 2^28 bytes written as a node record is read back unchanged whatever follows it in the buffer; on arbitrary (corrupt, truncated) bytes the reader either reports failure or returns a key and value lying entirely inside the buffer. Outside those size limits the record is silently corrupted.", "quantifier": "all keys, values, trailing bytes and arbitrary buffers", "why_tests_cant": "corrupt inputs are arbitrary byte strings of any length", "anchors": ["src/node_types.cc: read_kv, write_kv, encode_kv_length, decode_kv_length"]}
{"id": "C03", "title": "Document metadata round-trips through both indexes and both agree", "statement": "For every document whose id is at most 4095 bytes and whose numeric fields fit their documented widths, the metadata decoded from the by-id index and from the by-sequence index are both equal to the metadata that was saved (sequence, revision, deleted flag, content flags, size, body position, rev_meta, id).", "quantifier": "all DocInfo values within field widths", "why_tests_cant": "unbounded id / rev_meta lengths and all bit patterns including the deleted flag packed in the body position", "anchors": ["src/couch_save.cc: assemble_seq_index_value, assemble_id_index_value", "src/couch_db.cc: by_seq_read_docinfo, by_id_read_docinfo"]}
{"id": "C04", "title": "A buffer appended to the file reads back exactly from the position returned", "statement": "Whatever the current end of file (any alignment with respect to the 4096-byte blocks) and whatever the buffer, a successful append returns a position from which the read function returns exactly that buffer, also after any amount of further appending; block marker bytes never leak into data. The same holds for compressed buffers and for file headers.", "quantifier": "all file contents, all end positions, all buffers, all later appends", "why_tests_cant": "block-boundary arithmetic interacts with every length and position", "anchors": ["src/couch_file_write.cc: raw_write, db_write_buf, db_write_buf_compressed, write_header", "src/couch_file_read.cc: read_skipping_prefixes, pread_bin, pread_compressed, pread_header"]}
{"id": "C05", "title": "The database file is append-only", "statement": "No call that saves documents, saves local documents or commits, whether it succeeds or fails at any write, changes any byte of the file that was before the end of the file when the call started.", "quantifier": "all database states, all arguments, all I/O failure schedules", "why_tests_cant": "every write path under every failure point", "anchors": ["src/couch_file_write.cc", "src/couch_save.cc", "src/couch_db.cc: couchstore_commit_ex"]}
{"id": "C06", "title": "Index orders are total orders", "statement": "The order of document ids is the lexicographic order of bytes with a proper prefix first, the order of sequence keys is numeric order, and both are total orders (antisymmetric, transitive, equal only for equal keys).", "quantifier": "all pairs and triples of keys", "why_tests_cant": "transitivity and antisymmetry range over all triples", "anchors": ["src/util.cc: ebin_cmp, seq_cmp", "src/btree_read.cc: lookup_compare"]}
{"id": "C07", "title": "A batch of index updates equals doing the updates one at a time on a map", "statement": "Updating a B-tree index with any sorted batch of fetch/insert/remove operations (at most one insertion per key, placed last for that key) leaves exactly the key/value map obtained by applying the operations one after another, whatever the shape and size of the tree, node-size settings and reduce functions; in particular the tree becomes empty exactly when the map does.", "quantifier": "all trees, all batches, all node-size thresholds", "why_tests_cant": "node splitting, multi-level rewrites and root growth depend on unbounded data", "anchors": ["src/btree_modify.cc: modify_btree, modify_node, flush_mr_partial, finish_root, maybe_flush, mr_move_pointers"]}
{"id": "C08", "title": "B-tree structural integrity is preserved by every update", "statement": "After any successful index update every node pointer refers to an earlier position in the file holding an intact node, all leaves are at the same depth, keys are strictly increasing, every separator equals the greatest key below it, and stored subtree sizes and reductions describe the data below; hence traversals terminate.", "quantifier": "all histories of updates", "why_tests_cant": "an inductive invariant over unbounded histories", "anchors": ["src/btree_modify.cc", "src/node_types.cc"]}
{"id": "C09", "title": "Looking up keys in an index returns exactly what the index maps them to", "statement": "A lookup of any sorted list of keys reports, in order and exactly once per key, the stored value if the key is present and not-found otherwise.", "quantifier": "all trees and all key lists", "why_tests_cant": "tree shape, key distribution over nodes are unbounded", "anchors": ["src/btree_read.cc: btree_lookup, btree_lookup_inner"]}
{"id": "C10", "title": "A range scan of an index returns exactly the entries in the range, in order", "statement": "A scan from a start key (empty key: from the beginning) with an optional inclusive end key delivers every entry within the bounds exactly once in ascending order and no other, and stops at the first error of the callback, returning that error.", "quantifier": "all trees, start and end keys, callbacks", "why_tests_cant": "boundaries may fall anywhere in an unbounded tree", "anchors": ["src/btree_read.cc: btree_lookup_inner (fold)"]}
{"id": "C11", "title": "Read your writes", "statement": "After successfully saving a batch of documents with distinct ids, looking any of them up by id returns the saved metadata with its new sequence number, opening it returns the saved body, and every id not in the batch gives the same answer as before.", "quantifier": "all database states, all batches with distinct ids, all document bodies", "why_tests_cant": "arbitrary histories and tree shapes", "anchors": ["src/couch_save.cc: couchstore_save_documents", "src/couch_db.cc: couchstore_docinfo_by_id, couchstore_open_document"]}
{"id": "C12", "title": "The by-sequence and by-id indexes always describe the same documents", "statement": "In every database reachable by saves, each document id known by id has exactly one entry in the by-sequence index, under its current sequence number and with the same metadata, and there is no other entry in the by-sequence index.", "quantifier": "all histories of saves", "why_tests_cant": "two separately updated indexes must stay in step over any history", "anchors": ["src/couch_save.cc: update_indexes, idfetch_update_cb"]}
{"id": "C13", "title": "Sequence numbers are assigned consecutively and never reused", "statement": "Saving n documents assigns the next n sequence numbers after the last one, in array order; with the as-is option the given numbers are stored and the last sequence becomes at least each of them; the last sequence never decreases.", "quantifier": "all database states and batches", "why_tests_cant": "histories are unbounded", "anchors": ["src/couch_save.cc: couchstore_save_documents_and_callback"]}
{"id": "C14", "title": "The change feed is complete, ordered and duplicate free", "statement": "Iterating changes since s delivers exactly one entry for each document whose current sequence number is at least s (subject to the deletes-only / no-deletes option), in ascending sequence order, with its current metadata.", "quantifier": "all histories, all s, all options", "why_tests_cant": "depends on the whole history and on both indexes", "anchors": ["src/couch_db.cc: couchstore_changes_since, lookup_callback"]}
{"id": "C15", "title": "Iterating all documents is complete and in id order", "statement": "Iterating documents from a start key delivers each known document with id at or after it exactly once in ascending id order with its current metadata.", "quantifier": "all histories, start keys and options", "why_tests_cant": "as C14", "anchors": ["src/couch_db.cc: couchstore_all_docs"]}
{"id": "C16", "title": "Database statistics are exact", "statement": "The document count, deleted count and last sequence reported for a database equal the number of live documents, the number of tombstones and the last sequence assigned, and the reported data size is the sum of the stored sizes.", "quantifier": "all histories of saves (counts below 2^40)", "why_tests_cant": "statistics are maintained incrementally in reductions over an unbounded tree", "anchors": ["src/reduces.cc", "src/couch_db.cc: couchstore_db_info"]}
{"id": "C17", "title": "Counting changes equals enumerating them", "statement": "The number of changes reported between two sequence numbers equals the number of entries a full enumeration would show in that inclusive range.", "quantifier": "all databases and all pairs of 48-bit bounds", "why_tests_cant": "the count is computed from reductions of whole subtrees; boundaries can fall anywhere", "anchors": ["src/couch_db.cc: couchstore_changes_count, btree_eval_seq_reduce"]}
{"id": "C18", "title": "Local documents behave as an independent map", "statement": "Saving or deleting local documents changes exactly those local documents: afterwards a saved one opens with the saved contents, a deleted one is not found, others are unaffected, and ordinary documents, counts and sequences are untouched.", "quantifier": "all database states and local documents", "why_tests_cant": "arbitrary histories", "anchors": ["src/couch_db.cc: couchstore_save_local_document, saveLocalDocuments, couchstore_open_local_document"]}
{"id": "C19", "title": "A failed save has no visible effect", "statement": "If saving documents or local documents returns an error, for whatever I/O failure, every later read gives the same answer as before the call, and the last sequence is unchanged.", "quantifier": "all database states, batches and failure schedules", "why_tests_cant": "all failure points in a variable-length write schedule", "anchors": ["src/couch_save.cc: update_indexes", "src/btree_modify.cc: modify_btree"]}
{"id": "C20", "title": "Committed data survives reopening", "statement": "After a successful commit, closing and reopening the file gives a database on which every read returns the same answer as before closing, with the same last sequence, purge sequence and timestamp.", "quantifier": "all database states", "why_tests_cant": "round trip through the on-disk header for all states", "anchors": ["src/couch_db.cc: couchstore_commit_ex, couchstore_open_db_ex, find_header, find_header_at_pos, db_write_header"]}
{"id": "C21", "title": "Commit is atomic under crashes", "statement": "If the machine stops at any moment during saves and a commit, with any subset of the bytes not yet synced having reached the disk, reopening the file succeeds and yields either exactly the previously committed state or exactly the state being committed; before the header marker write it is the former and after the commit returns successfully it is the latter.", "quantifier": "all committed states, all histories of saves up to the commit, all crash points, all subsets of unsynced bytes and any file length between the synced one and the written one", "why_tests_cant": "exponentially many crash images at each of unboundedly many points", "anchors": ["src/couch_db.cc: couchstore_commit_ex, write_disk_block_type, find_header"]}
{"id": "C22", "title": "Recovery after a crash is repeatable", "statement": "After reopening a crashed file, further saves and commits satisfy the same guarantees, however many crashes happen in a row.", "quantifier": "all sequences of work and crashes", "why_tests_cant": "unbounded crash/recovery histories", "anchors": ["src/couch_db.cc: couchstore_open_db_ex"]}
{"id": "C23", "title": "Opening finds the newest intact header", "statement": "Opening a file selects the last header block in the file; in recovery mode corrupt header blocks are skipped and the newest intact one is selected; without it a corrupt newest header is reported as an error and never silently skipped.", "quantifier": "all file contents", "why_tests_cant": "arbitrary files", "anchors": ["src/couch_db.cc: find_header, find_header_at_pos"]}
{"id": "C24", "title": "Time travel: rewinding shows exactly the earlier commit", "statement": "Rewinding a handle to an earlier header (by rewinding, seeking to an offset) gives a database on which every read returns what it returned when that header was committed, whatever was committed later.", "quantifier": "all histories of commits and all positions", "why_tests_cant": "unbounded histories", "anchors": ["src/couch_db.cc: couchstore_rewind_db_header, seek, couchstore_fastforward_db_header"]}
{"id": "C25", "title": "Corruption of one stored byte is detected", "statement": "If any single byte (or burst of up to four consecutive bytes) of the body of a stored chunk is changed, reading the chunk reports a checksum failure instead of returning wrong data.", "quantifier": "all chunk contents, positions and replacement bytes (legacy CRC-32 table implementation)", "why_tests_cant": "all contents and positions", "anchors": ["src/crc32.cc: hash_crc32 table, perform_integrity_check", "src/couch_file_read.cc: pread_bin_internal"]}
{"id": "C26", "title": "Compaction preserves the database", "statement": "A successful compaction without callbacks produces a file in which every document has the same metadata (up to body position) and body, the by-sequence order, local documents, last sequence and timestamp are the same; with the drop-deletes option exactly the tombstones are omitted.", "quantifier": "all source databases", "why_tests_cant": "arbitrary contents; two indexes rebuilt by different algorithms", "anchors": ["src/db_compact.cc", "src/tree_writer.cc", "src/btree_modify.cc: complete_new_btree"]}
{"id": "C27", "title": "External merge sort sorts", "statement": "Sorting a stream with any in-memory block size of at least one yields a stream with the same records in non-decreasing order, and never reads past the end of a tape.", "quantifier": "all record sequences, block sizes and orders", "why_tests_cant": "loop structure over unbounded inputs, tape switching", "anchors": ["src/merge_sort.h: merge_sort"]}
{"id": "C28", "title": "Merging sorted files gives one sorted file", "statement": "Merging any number of sorted record files produces a sorted output containing exactly the records of the inputs; with deduplication exactly one winner per key among the records that are simultaneously at the head.", "quantifier": "all numbers of files and contents", "why_tests_cant": "unbounded k-way merges", "anchors": ["src/file_merger.cc: do_merge_files, sorted_vector_add, sorted_vector_pop"]}
{"id": "C29", "title": "Buffered I/O is indistinguishable from direct I/O", "statement": "For every sequence of reads, writes, syncs and buffer releases through the I/O buffer, each read returns what it would return without the buffer, and after a sync the underlying file has the same content.", "quantifier": "all operation sequences, offsets, sizes, buffer sizes and counts", "why_tests_cant": "unbounded interleavings of overlapping reads/writes with an LRU cache", "anchors": ["src/iobuffer.cc"]}
{"id": "C30", "title": "Buffering adds no new crash states", "statement": "Every disk image that a crash can leave when reads, writes and syncs go through the I/O buffer (and the buffers are released only while nothing is waiting in them) can also be left by a crash when they do not.", "quantifier": "all operation sequences and crash points", "why_tests_cant": "as C21", "anchors": ["src/iobuffer.cc: write_to_buffer, flush_buffer, pwrite, sync"]}
{"id": "C31", "title": "Ranges lookup returns the documents in all requested ranges", "statement": "With the RANGES option the documents in each of the given begin/end ranges are delivered in order.", "quantifier": "all databases and lists of ranges", "why_tests_cant": "tree shape and range boundaries are unbounded", "anchors": ["src/couch_db.cc: iterate_docinfos", "include/libcouchstore/couch_db.h: couchstore_docinfos_by_id"]}
{"id": "C32", "title": "Point-in-time search finds the first header containing a sequence number", "statement": "Searching for the first header containing a sequence number (granularity one) positions the handle on the oldest header whose last sequence is at least that number.", "quantifier": "all histories of commits and all sequence numbers", "why_tests_cant": "binary search over irregularly spaced headers", "anchors": ["src/couch_db.cc: seekFirstHeaderContaining"]}
{"id": "C33", "title": "The save callback reports each document once with its previous version", "statement": "During a successful save the callback is invoked exactly once per document of the batch, in id order, with the new metadata and with the previous metadata if and only if the id was already present.", "quantifier": "all database states and batches with distinct ids", "why_tests_cant": "arbitrary tree contents", "anchors": ["src/btree_modify.cc: do_save_callback"]}
{"id": "C34", "title": "Guided purge removes exactly the purged entries", "statement": "Purging an index with item-wise purge decisions leaves exactly the entries not purged.", "quantifier": "all trees and purge decisions", "why_tests_cant": "arbitrary trees", "anchors": ["src/btree_modify.cc: guided_purge_btree, purge_node"]}
{"id": "C35", "title": "Encryption never uses one nonce for two stored chunks", "statement": "In one file, two chunks successfully stored at different positions are encrypted with different nonces and each is decrypted with the nonce it was encrypted with.", "quantifier": "all histories of writes", "why_tests_cant": "all pairs of positions", "anchors": ["src/crypto.h: offset2nonce", "src/couch_file_write.cc: write_encrypted", "src/couch_file_read.cc: pread_encrypted"]}
{"id": "C36", "title": "Open flags are decoded as documented", "statement": "Every documented option encoded in the open flags selects exactly the documented setting (buffer sizes, node sizes, periodic sync interval) and encoding a sync interval then decoding it yields the greatest power of two not above the kilobyte-rounded interval within the documented limits.", "quantifier": "all 64-bit flag words and intervals", "why_tests_cant": "2^64 flag words", "anchors": ["src/couch_db.cc: get_tree_file_options_from_flags, couchstore_encode_periodic_sync_flags"]}
{"id": "C37", "title": "Catch-up replay brings the compacted file to the source state", "statement": "Replaying a source database from a snapshot onto a target holding that snapshot makes the target's documents and local documents equal to the source's.", "quantifier": "all sources, snapshots and flush thresholds", "why_tests_cant": "all batchings of the changes", "anchors": ["src/db_compact.cc: cb::couchstore::replay, Context"]}
{"id": "C38", "title": "Saving within its size budget", "statement": "The memory set aside for a batch (index terms and update actions) is always exactly sufficient: no allocation within the batch fails or overruns, whatever the sizes of ids and metadata and however many documents already exist.", "quantifier": "all batches", "why_tests_cant": "arithmetic over arbitrary sizes", "anchors": ["src/couch_save.cc: term_meta_size, update_indexes (actbuf)", "src/util.cc: fatbuf_get"]}
{"id": "C39", "title": "Sorting a file with worker threads", "statement": "sort_file sorts: when it returns success, the file holds exactly the records it held before, in order (or is untouched, if the records only go to the callback, which has then been given them in order), and no temporary file is left; it always returns, it returns success if no operation fails, and it touches no other files. The source file is intact until the output is made.", "quantifier": "all files of records, comparisons, buffer sizes and numbers of temporary files, all interleavings of the three threads, all spurious wake-ups and all failing operations", "why_tests_cant": "a test sees a few of the interleavings of the caller and the two workers; races, lost wake-ups and failures at every step cannot be enumerated", "anchors": ["src/file_sorter.cc: sort_file, do_sort_file, sort_worker, parallel_sorter_add_job, parallel_sorter_wait, parallel_sorter_finish, merge_tmp_files, pick_merge_files, sorter_tmp_file_path"]}
{"id": "C40", "title": "The sort used where the system has none", "statement": "quicksort, on systems without a reentrant sort of their own, leaves the elements of the array in non-decreasing order, each as often as before; it always ends and never reads or writes outside of the array, whatever the comparison answers.", "quantifier": "all arrays of any length, all comparisons that are total preorders; for termination and memory all functions at all", "why_tests_cant": "the division of the elements has many boundary cases (equal elements, medians, tails) that depend on the length and the order of the input; inconsistent comparisons cannot be enumerated", "anchors": ["src/quicksort.c: quicksort, qsort_fallback, med3, swapfunc", "src/file_sorter.cc: sort_records"]}
{"id": "C41", "title": "Order of view keys", "statement": "CollateJSON compares two JSON texts (without whitespace) in CouchDB's order, in each of its modes: null, false, true, numbers by value, strings (by ICU, or by their bytes), arrays element by element, objects member by member; a beginning comes first. Its results are a total preorder on all JSON values; it always ends and never reads outside of the two texts.", "quantifier": "all JSON values of any depth and size, all ways of writing their numbers and strings, all modes", "why_tests_cant": "transitivity and antisymmetry are statements about all triples of values; a collation that violates them for some silently corrupts the index built with it", "anchors": ["src/views/collate_json.cc: CollateJSON, compareStringsASCII, compareStringsUnicode, createStringFromJSON, ConvertJSONEscape, readNumber"]}
{"id": "C42", "title": "Formats of view indexes", "statement": "What is written in the formats of view indexes is read back: keys (JSON key and document id), keys by document id, values (partition and emitted values), values by document id (partition and keys of each view), reductions (count, set of partitions, results of the reduce functions) and the record files from which indexes are built and updated; the reading of any bytes ends, with a result or with a stop, without the use of memory outside of them. Sets of partitions behave as sets. View keys are in the order of their JSON keys, then of their document ids. A record file cut short is noticed; of several records for a key the newest counts.", "quantifier": "all keys, values, reductions and records of any length and number, all byte sequences as input, all points at which a record file is cut, all sets of partitions", "why_tests_cant": "lengths and counts are kept in fields of 8 to 40 bits, and the limits matter only for particular sizes; the inputs that are not the output of the encoder are unbounded in number", "anchors": ["src/views/keys.cc", "src/views/values.cc", "src/views/reductions.cc", "src/views/bitmap.cc", "src/views/util.cc: view_key_cmp, view_id_cmp, read_view_record, write_view_record, compare_view_records, merge_view_kvs_ops_records"]}
{"id": "C43", "title": "Reductions of view indexes are right at every moment", "statement": "Whatever batches of updates are applied to the indexes of a view group, with whatever node sizes and I/O faults, the reduction at the root of the index by document id is the number of documents and the set of their partitions; that of the index of a view is the number of values, the set of partitions and a right result of each reduce function for all the keys and values in the index. _count gives the number of values; _sum gives the exact sum of integers as long as their magnitudes sum to less than 10^15. Both are right however the values are spread over nodes.", "quantifier": "all histories of update batches, all node size limits, all fault points, all lists of reduce functions that meet their specification, all values, all ways to spread values over the nodes of a tree", "why_tests_cant": "a reduction is combined from those of nodes, level by level; it must be right for every shape of the tree that any history leads to", "anchors": ["src/views/reducers.cc: view_id_btree_reduce, view_id_btree_rereduce, view_btree_reduce, view_btree_rereduce, builtin_count_reducer, builtin_sum_reducer", "src/views/mapreduce", "src/btree_modify.cc"]}
{"id": "C44", "title": "Initial build and cleanup of view indexes", "statement": "An index of a view group that is built from sorted records has exactly these records. A cleanup of partitions removes from every index exactly the entries of these partitions, keeps all others in their order with right reductions, reports the number of removed ids and values, and leaves no partition to be cleaned up; an index with nothing to clean up is not written anew. A cleanup that fails leaves all indexes as they were.", "quantifier": "all sets of partitions, all groups of indexes with any number of views and entries, all tree shapes, all fault points", "why_tests_cant": "whole subtrees are kept or removed by their reductions, and nodes that shrink may have to be split or joined; whether entries are lost depends on the sizes of the nodes along each path", "anchors": ["src/views/view_group.cc: build_btree, build_id_btree, build_view_btree, couchstore_cleanup_view_group, cleanup_btree", "src/views/purgers.cc", "src/btree_modify.cc: guided_purge_btree"]}
{"id": "C45", "title": "The header of an index file and the whole group", "statement": "A header of a view group that is written to an index file is read back as it was from the position that writing it gave, as long as the file is only appended to; every header that is read has its lists in order and its values in range, whatever the bytes are. A group built into a new file has the header of the old one but for the roots, and indexes with exactly the records. A cleanup of a group leaves a new group with a header that differs only in the roots and the cleanup mask, now empty; the old group can still be read at its position. A failed build or cleanup has met an I/O fault or a limit of the format.", "quantifier": "all headers with any numbers of views, partitions and versions, all byte sequences as header, all files, all groups, all sets of partitions to clean up, all fault points", "why_tests_cant": "sizes are kept in fields of 8 and 16 bits; whether the group is intact depends on everything written before and after it, and on the point of a fault", "anchors": ["src/views/index_header.cc: decode_index_header, encode_index_header", "src/views/view_group.cc: read_view_group_header, write_view_group_header, couchstore_build_view_group, couchstore_cleanup_view_group"]}
{"id": "C46", "title": "Sorted lists", "statement": "Whatever elements are added to and removed from a sorted list, it is in ascending order of keys with no key twice, and looking up a key gives the element that was added last under this key, or nothing if it was removed since or never added.", "quantifier": "all sequences of additions and removals, all elements, all keys", "why_tests_cant": "the place of an element depends on all the operations before it", "anchors": ["src/views/sorted_list.cc: sorted_list_add, sorted_list_get, sorted_list_remove"]}
{"id": "C47", "title": "Updates of a view group", "statement": "An update of a view group from files with insertions and removals in the order of the keys gives a header that differs from the old one only in the roots and the cleanup mask, and whose indexes have exactly what the old indexes and the records say: for each key the last record decides, other entries stay. Of partitions that are being cleaned up, an index that has records keeps nothing but what the records bring; an index without records stays as it was. The new cleanup mask has exactly the partitions of the old one of which something is left. The numbers of insertions, removals and purged entries are reported. The result does not depend on how the records are divided into batches, if no record inserts into a partition that is being cleaned up. The old header still names the old indexes, also after a failed update, which has met an I/O fault or a limit of the format.", "quantifier": "all groups with any number of views and entries, all sequences of records in order, all batch sizes, all cleanup masks, all tree shapes, all fault points", "why_tests_cant": "each batch rewrites a part of the tree and purges on the way down; what is purged and kept depends on the nodes the batches touch", "anchors": ["src/views/view_group.cc: couchstore_update_view_group, update_btree, update_id_btree, update_view_btree, view_id_bitmask, view_bitmasks", "src/btree_modify.cc: modify_btree, maybe_purge_kp, maybe_purge_kv"]}
{"id": "C48", "title": "Files with records for an update", "statement": "The records written into a file are read one after the other up to its end. An update from a file that ends before the end of a record, or that cannot be read to its end, does not succeed.", "quantifier": "all sequences of records, all points at which the file may be cut, all groups", "why_tests_cant": "the file may be cut at any byte of any record", "anchors": ["src/views/view_group.cc: read_record, update_btree, couchstore_update_view_group"]}
{"id": "C49", "title": "Compaction of a view group", "statement": "A compaction of a view group that succeeds gives a header that differs from the old one only in the roots and in that nothing is left to clean up. The indexes in the new file have exactly the entries of the old ones, in order and with right reductions, but for those of partitions that were being cleaned up, and the number of entries that were copied is reported. The old file is left as it was, also by a compaction that fails, and a compaction fails only if a read or write fails or a limit of the format is met.", "quantifier": "all groups, all cleanup masks, all faults of both files", "why_tests_cant": "must hold for indexes of every size and depth and for every subset of partitions", "anchors": ["src/views/view_group.cc: couchstore_compact_view_group, compact_id_btree, compact_view_btree, compact_btree", "src/views/compaction.cc: view_id_btree_filter, view_btree_filter"]}
{"id": "C50", "title": "Updates of a view group from unsorted files", "statement": "An update of a view group from files with records in any order gives the same indexes and numbers as if the files had been in order: for each key the last record for it in its file decides. The files that the sort writes are in the format that the update reads.", "quantifier": "all files with records, all schedules of the sort's threads, all groups", "why_tests_cant": "the result depends on the order of the records and on the schedule of the sort's threads", "anchors": ["src/views/view_group.cc: couchstore_update_view_group", "src/views/file_sorter.cc: sort_view_kvs_ops_file, sort_view_ids_ops_file"]}
{"id": "C51", "title": "Walks over the trees show the whole structure once", "statement": "A walk over the by-id tree, the by-sequence tree or the tree of local documents calls the callback first for the root at depth 0, then for each subtree that has a document not before the start, with its depth, its size and its reduction, before what is below it, and for each document not before the start that the options select once, in key order, below its subtrees. All documents are at the same depth. The reductions shown are the numbers of live and deleted documents and the sum of the body sizes (by id), the number of documents (by sequence) or empty (local) of the documents below, and the size of a subtree is the sum of those directly below it and some bytes of its own. A negative result of the callback ends the walk with that error; a read error ends it after some first calls.", "quantifier": "all reachable databases, all start keys and sequence numbers, all options, all callbacks, all schedules of misbehaving raw operations (tolerant mode: callbacks that do not fail and no misbehaving operations)", "why_tests_cant": "the shape of the tree depends on the whole history of saves, purges and compactions; the reductions and sizes must be right at every level, and depths must be restored after every subtree", "anchors": ["src/couch_db.cc: couchstore_walk_tree, couchstore_walk_id_tree, couchstore_walk_seq_tree, couchstore_walk_local_tree, walk_node_callback, lookup_callback, local_read_docinfo", "src/btree_read.cc: btree_lookup_inner"]}
{"id": "C52", "title": "Streams are files of bytes", "statement": "A stream in checksummed or encrypted chunks behaves as a file of bytes: what was written, in pieces of any sizes, is read back in pieces of any other sizes after a seek to the beginning, also after further writes at the end and after the file was closed and opened again; a read that asks for more than there is reports the end. Records written by the tree writer are read back in the same order and are followed by the end. A misbehaving file gives an error and never wrong bytes.", "quantifier": "all sequences of writes at the end, reads, flushes and seeks, all sizes of the buffer, all contents, all records, all schedules of misbehaving raw operations (without reads of 0 bytes before the end)", "why_tests_cant": "the boundaries of writes, chunks and reads meet in unboundedly many ways", "anchors": ["src/stream.cc: FileOpsStream, ChunkedStream, ChecksumStream, EncryptedStream", "src/tree_writer.cc: TreeWriter::write_record, TreeWriter::read_record"]}
{"id": "C53", "title": "Streams deliver only verified bytes", "statement": "Whatever is in the file, the bytes a stream delivers are bytes of chunks with the right checksum or authentication code, in the order of the file, and the end is reported only if nothing of the file was cut off.", "quantifier": "all contents of the file, all sequences of reads, all schedules of misbehaving raw operations", "why_tests_cant": "it ranges over all ways in which a file can be damaged", "anchors": ["src/stream.cc: ChunkedStream::read, ChecksumStream::read_chunk, EncryptedStream::read_chunk"]}
{"id": "C54", "title": "Blocks from an arena do not overlap", "statement": "The blocks that were allocated from an arena and not freed have no byte in common and lie in memory that the arena holds; freeing from a mark frees exactly the blocks allocated since the mark, the mark can be used again, and the blocks before it stay; no assertion fails.", "quantifier": "all sequences of allocations, marks and frees, all sizes, all addresses that malloc may return, failures of malloc (except for padded allocations, and marks right after a failure)", "why_tests_cant": "overlaps depend on the sizes, the order of the operations and the addresses that malloc returns", "anchors": ["src/arena.cc: new_arena, add_chunk, arena_alloc_unaligned, arena_alloc, arena_mark, arena_free_from_mark, arena_free_all"]}
{"id": "C55", "title": "Allocations from an arena are aligned or fail cleanly", "statement": "arena_alloc returns a block that begins at a multiple of the word size, or null if there is no memory, in which case the arena can be used as before.", "quantifier": "all states of an arena, all sizes, all results of malloc", "why_tests_cant": "it depends on the sizes of all earlier allocations and on when malloc fails", "anchors": ["src/arena.cc: arena_alloc, arena_alloc_unaligned, arena_mark, arena_free_from_mark"]}
{"id": "C56", "title": "Periodic synchronisation bounds what is not on disk", "statement": "With a synchronisation period of N bytes, after each successful write fewer than N bytes were written since the last fdatasync, whatever writes, incomplete writes, failures and changes of the period came before; a failed synchronisation makes the write fail with its error code.", "quantifier": "all sequences of file operations, all answers of the system calls (without writes that were found to be invalid)", "why_tests_cant": "the bound depends on the sizes of all writes and on which of them were incomplete or failed", "anchors": ["src/os.cc: PosixFileOps::pwrite, PosixFileOps::sync, PosixFileOps::set_periodic_sync"]}
{"id": "C57", "title": "Validated writes are read back", "statement": "With write validation, a write succeeds only if the first 8192 bytes of it can be read back and have the checksum of what was written; so a difference within four bytes is detected.", "quantifier": "all buffers and offsets, all answers of the system calls", "why_tests_cant": "a test cannot make reads fail or stop short at every point", "anchors": ["src/os.cc: PosixFileOps::pwrite, PosixFileOps::set_write_validation_enabled"]}
{"id": "C58", "title": "Interrupted system calls are repeated", "statement": "A signal does not change what opening, reading, writing and closing do: interrupted calls are repeated and the result is that of the first call that is not interrupted, with its error code.", "quantifier": "all sequences of answers of the system calls", "why_tests_cant": "a test cannot interrupt every call at every point", "anchors": ["src/os.cc: PosixFileOps::open, pread, pwrite, close"]}
{"id": "C59", "title": "Recovery copies what can still be read", "statement": "When bytes of a file have changed in a way that the checksums notice, compaction in recovery mode makes a file with exactly the documents that can still be found by sequence number and read, with the contents they had before the damage, all local documents and the same sequence numbers, whatever the state of the by-id index. It reports an error beside the new file only if a document is lost, and reports none only if nothing is lost. It fails without a new file only if local documents cannot be read.", "quantifier": "all histories of a file, all sets of changed bytes anywhere in it that the checksums notice, all compaction options with a filter that keeps everything", "why_tests_cant": "a test damages a few bytes of a few files", "anchors": ["src/db_compact.cc: compact, compact_seq_tree, compact_seq_fetchcb, compact_localdocs_tree", "src/btree_read.cc: btree_lookup_inner (tolerate_corruption)", "src/dbck.cc: recover_file"]}
{"id": "C60", "title": "Metadata rewritten while compacting", "statement": "With a callback that rewrites document metadata, compaction makes a file with exactly the documents that the filter keeps, each with the metadata that the callback returned for it (or its own if the callback declined or there is no body), and everything else as in the source. The callback is shown every kept document that has a body, once, in the order of sequence numbers, with its stored body. Other fields that the callback changes have no effect. Without a filter the callback is refused.", "quantifier": "all histories of the source, all filters that ask for bodies only of documents that have one, all callbacks whose metadata fits into an index", "why_tests_cant": "the callback is arbitrary code of the user, with state, and a test runs one", "anchors": ["src/db_compact.cc: compact_seq_fetchcb, output_seqtree_item, couchstore_compact_db_ex", "src/util.cc: arena_special_copy_buf_and_revmeta"]}
{"id": "C61", "title": "A spatial index has its records and tight boxes", "statement": "Building a spatial index from records gives an index with exactly these records, in the order given. Each node is kept with the smallest box around its records, so that a search which only goes down into nodes whose box meets a window finds exactly the records whose boxes meet the window. A build that cannot write everything reports an error.", "quantifier": "all lists of records, all numbers of dimensions that fit into a key, all bounds that are numbers (also infinite ones), all node sizes, all windows", "why_tests_cant": "the order of records and the sizes of nodes decide on the shape of the tree, and a box that is too small hides records only from some searches", "anchors": ["src/views/spatial.cc: view_spatial_reduce, expand_mbb", "src/views/spatial_modify.cc: spatial_push_item, flush_spatial_partial, complete_new_spatial, spatial_finish_root", "src/views/view_group.cc: build_spatial"]}
{"id": "C62", "title": "Order of records in a spatial index", "statement": "Records of a spatial index are sorted by the position of the centers of their boxes on a space-filling curve: of the bits of the coordinates on a grid the highest ones of all dimensions come first. A box that is in no dimension behind another one is not sorted behind it; boxes compare as equal only if they are at the same point of the grid; everything sorted between two boxes in the same cell of a grid with sides of a power of two is in this cell. The comparison used to find duplicates is a total order.", "quantifier": "all boxes, all numbers of dimensions, all scales, all cells", "why_tests_cant": "a test compares a few boxes in two dimensions", "anchors": ["src/views/spatial.cc: spatial_key_cmp, spatial_merger_key_cmp, interleave_uint32s, set_bit_sized, spatial_center, spatial_scale_point"]}
{"id": "C63", "title": "Compaction of a spatial index", "statement": "Compaction of a spatial index makes an index in the new file with exactly the records of the old one, in the same order, but for those of partitions that are being cleaned up, with the smallest boxes around what is left; it reports their number, and the old file stays as it was. It fails only if a system call fails or at a limit of the file format.", "quantifier": "all spatial indexes, all sets of partitions, all node sizes", "why_tests_cant": "which records are left out and how the rest falls into nodes depends on the whole contents", "anchors": ["src/views/view_group.cc: compact_spatial, compact_view_spatial, compact_spatial_fetchcb", "src/views/spatial.cc: view_spatial_filter"]}
{"id": "C64", "title": "Statistics of a view", "statement": "A view with the builtin reduce function `_stats` has as its reduction the number, the sum, the least, the greatest and the sum of the squares of all the values in the index, whatever updates led to it and however its entries are spread over nodes.", "quantifier": "all histories of updates, all node sizes, all integer values", "why_tests_cant": "the result is put together from texts of intermediate results, in as many levels as the tree has; a test has one small tree", "anchors": ["src/views/reducers.cc: builtin_stats_reducer, scan_stats", "src/views/reducers.h: stats_t"]}
{"id": "C65", "title": "Recovery from stale commits", "statement": "The recovery tool, asked to look at stale commits of a damaged file, keeps everything that recovery of the last commit finds, and adds what that has lost: a document of an older commit that can still be found by its id and whose body can still be read is in the result, in the version of the newest such commit, with its metadata, sequence number and body. Nothing is made up: every document of the result was in the database, now or at a commit. The number of documents that it reports is right, and the result is committed.", "quantifier": "all histories of the file, all damage that the checksums notice, all numbers of stale commits", "why_tests_cant": "which documents can be recovered from where depends on the history and on the place of every damaged byte", "anchors": ["src/dbck.cc: recover_file, rewind_and_get_stale_data, rewind_hook, recover_file_hook", "src/couch_db.cc: couchstore_rewind_db_header"]}
{"id": "C66", "title": "The exit status of the checking program tells whether a file can be read", "statement": "The program that checks a database file ends with status 0 exactly if everything that can be read from the database (documents, bodies, local documents, both indexes, statistics) reads as it did before the file was damaged, and every body marked as compressed can be decompressed. So no document of a file that passes is lost, and there is no false alarm: what any crash leaves after the first commit passes, up to such bodies.", "quantifier": "all histories of the file, all damage that the checksums notice, all crash points and crash images", "why_tests_cant": "it must hold wherever the damaged bytes are, for every shape of the three indexes, and at every crash point", "anchors": ["src/check.cc: main, callback_and_access_document, callback_and_access_local_document, callback, print_error"]}
{"id": "C67", "title": "The view tools do what their input says", "statement": "The tools that build, update, compact, clean up and merge view indexes call the library with exactly the arguments that were written to their standard input: the type, path, header position and views of the group with names and reduce functions of any bytes, or the dimensions and boxes of spatial views, the files, sizes and the header. They consume nothing of what follows. If the input ends too early, or has a line without digits where the position of the header should be, or an unknown type of group, nothing is done and the exit status is not 0.", "quantifier": "all groups with any number of indexes and views, all arguments, all points where the input may end", "why_tests_cant": "it must hold for every description of a group and for every prefix of its text", "anchors": ["src/views/view_group.cc: couchstore_read_view_group_info, read_btree_info, read_spatial_info", "src/views/util.cc: couchstore_read_line, couchstore_read_int", "src/views/bin: main of the five tools"]}
{"id": "C68", "title": "The history of a file can be listed", "statement": "Asked for the headers of a file that was closed, or left behind by a crash, the tool that prints headers prints one line for each header: its position, version and time, and the sequence numbers, counts and sizes that the handle reported when it was committed. Going backward it begins at the newest commit, or at the position given, and prints every successful commit that this one was made on top of (in files of the older versions: every earlier successful commit), the newest first, none twice. Going forward it prints every successful commit, the oldest first. Without a direction it prints the newest commit. Nothing is printed that was not committed, and a position where no header is is refused.", "quantifier": "all histories of saves, commits, rewinds and crashes, all crash images, all positions, both directions", "why_tests_cant": "it must hold for every history of the file, every crash point and every position", "anchors": ["src/dbinfo.cc: process_file, print_db_info", "src/couch_cxx_util.cc: openDatabase", "src/couch_db.cc: couchstore_rewind_db_header, couchstore_fast_forward_db_header, couchstore_db_info"]}
{"id": "C69", "title": "A dump shows every document", "statement": "Asked for the documents of a file that was closed, or left behind by a crash, the tool that dumps documents prints one line for each document of the newest commit that is left (or of the commit at the position given), in the order of the sequence numbers or of the ids, and how many there are; or the document with the key given. The line shows the id, the sequence number, the revision, the deletion with its source, the metadata of the data service and the contents of the body, decompressed and with the extended attributes apart. Nothing else is printed, also when the program fails. A key that no document has is an error.", "quantifier": "all histories of saves, commits and crashes, all crash images, all options of order and form, all metadata, bodies and behaviours of the other libraries", "why_tests_cant": "it must hold for every content of the file, every crash point and every metadata of a document", "anchors": ["src/dbdump.cc: foldprint, process_vbucket_file", "src/couch_cxx_util.cc: openDatabase", "src/couch_db.cc: couchstore_changes_since, couchstore_all_docs, couchstore_docinfo_by_id, couchstore_open_doc_with_docinfo"]}
{"id": "C70", "title": "What the hooks of a compaction write is part of the compacted file", "statement": "The hook that is called before the commit of a compaction gets a database that holds what is left of the source after the filter, with the purge sequence number that the filter has set, if it has. Whatever the hook saves there, documents, local documents or another purge sequence number, is in the compacted file when it is opened, and everything else is as the hook found it; the file has the timestamp of the source. If the hook fails, the compaction fails with its error. A hook that does nothing changes nothing.", "quantifier": "all sources with any history, all filters, all hooks that save documents and local documents and set the purge sequence number, all misbehaviours of the raw file operations", "why_tests_cant": "it must hold for every hook, every filter and every content of the source", "anchors": ["src/db_compact.cc: cb::couchstore::compact, couchstore_set_purge_seq", "include/libcouchstore/couch_db.h: PrecommitHook, couchstore_compact_hook"]}
{"id": "C71", "title": "The compaction program purges exactly the expired tombstones", "statement": "The program that compacts a file writes a new file that holds what the newest commit of the source holds. With a time given, exactly the tombstones that were deleted before that time, and up to the sequence number given, are missing, and the purge sequence number of the new file is the highest one that was ever purged; without a time nothing is missing, or exactly the tombstones if they are to be dropped. No live document is ever lost, whatever its metadata. The program only fails if the new file cannot be written or a limit of the format is reached.", "quantifier": "all histories of the source file, all crash points and states of the disk after it, all options, all contents and metadata of documents, all failures of raw operations on the new file", "why_tests_cant": "the purge depends on metadata bytes and sequence numbers of every document and on what the source has gone through; tests purge a few documents of a fresh file", "anchors": ["src/compactor.cc: main, time_purge_hook", "src/db_compact.cc: cb::couchstore::compact, couchstore_compact_db_ex"]}
{"id": "C72", "title": "Groups of spatial views are built, updated and compacted without loss", "statement": "A view group with spatial views that is built in a new file has, at the position that is returned, a header with everything of the old header but the roots, and its indexes have exactly the records that were given. An update applies the records to the index by document id and leaves the spatial indexes as they are; what is still to be cleaned up afterwards is every partition of the old mask of which some index has something left. A compaction gives indexes with exactly the entries of the old ones but for those of partitions that are being cleaned up, and leaves the old file as it was.", "quantifier": "all headers, ids and records of spatial views of any number and dimension, all updates, all sizes of nodes, all failures of raw operations", "why_tests_cant": "the indexes are trees of any depth made from any set of boxes, and what is left of a partition depends on all updates before; tests build groups of a few records", "anchors": ["src/views/view_group.cc: couchstore_build_view_group, couchstore_update_view_group, couchstore_compact_view_group, build_view_spatial, compact_view_spatial", "src/views/spatial.cc", "src/views/spatial_modify.cc"]}
{"id": "C73", "title": "Readers are isolated from the writer", "statement": "A second handle that is opened on a database file while another handle writes to it, at any moment between or during its calls, can be opened and shows the last commit (or one that failed since then, or the one that is going on). From then on it gives the same answer to every question, whatever the writer does meanwhile: saves, commits, moves between headers, reopens, fails at any raw operation; and also if the reader sees only a part of a raw write. A compaction that reads through such a handle while the writer goes on gives a file with exactly what the handle showed.", "quantifier": "all histories of a file, all moments of opening, all further calls of the writer, all contents that may be read in between, all questions", "why_tests_cant": "the moments of two processes interleave in any way; a test runs the reader at a few fixed moments", "anchors": ["src/couch_db.cc: couchstore_open_db_ex, couchstore_commit_ex", "src/couch_file_write.cc", "src/couch_file_read.cc", "include/libcouchstore/couch_db.h", "src/db_compact.cc: couchstore_compact_db_ex"]}
{"id": "C74", "title": "The map of a file shows what was read", "statement": "The map that couch_dbdump prints of a file marks a block of 64 bytes only if something in it was read for the purpose that is shown, marks every block of which something was read, shows a block as full exactly if all of it was read, and never shows as old data what was read for the newest header.", "quantifier": "all sequences of reads with any offsets, sizes and purposes, of current data and then of old data", "why_tests_cant": "the reads may overlap, adjoin and cross blocks in any way; a test looks at a few files", "anchors": ["src/tracking_file_ops.cc: recordAccess, encodeTag, ~File, setTree, setHistoricData", "src/dbdump.cc: --map"]}
{"id": "C75", "title": "Merging operation files of a view group", "statement": "Merging files with operations (insertions and removals) on the indexes of a view group gives a file that has, in the order of keys, for each key the operation of the last of the files that has one; an update of the group with the merged files gives the same result as the operations of all files, one file after the other. If merging succeeds, every source was read to its end.", "quantifier": "all numbers of files, all records in them, all groups of views, all damaged files", "why_tests_cant": "the overlaps of keys between any number of files are unbounded; a test merges a few small files with distinct keys", "anchors": ["src/views/file_merger.cc: merge_view_kvs_ops_files, merge_view_ids_ops_files, merge_view_files", "src/views/util.cc: read_view_record, write_view_record, compare_view_records, dedup_view_records_merger", "src/file_merger.cc: merge_files"]}
{"id": "C76", "title": "File operations on Windows", "statement": "On Windows, with a synchronisation period of N bytes, after each successful write fewer than N bytes were written since the last synchronisation; a failed write or synchronisation is reported with the error code of the system; every read and write is at the offset that was asked for; reading at the end of the file is not an error; a closed file can be opened again.", "quantifier": "all sequences of file operations, all offsets and sizes, all answers of the system", "why_tests_cant": "the bound depends on the sizes of all writes, and a test cannot make the system fail at every point", "anchors": ["src/os_win.cc: WindowsFileOps::pread, pwrite, open, close, sync, set_periodic_sync"]}
{"id": "C77", "title": "Collection of latencies", "statement": "Starting, stopping and reading the collection of latencies is safe whatever calls other threads make: nothing is used after it was freed; what is reported is the number and the total time of exactly the calls since the collection was started; a call never waits for another one because of it, and it adds a bounded number of steps.", "quantifier": "all numbers of threads, all interleavings of their steps, all histories of starting and stopping", "why_tests_cant": "the failures need particular interleavings of a few instructions of several threads", "anchors": ["src/couch_latency.cc: CouchLatency::init, getInstance, destroyInstance, addItem, getLatencyInfo", "src/couch_latency_internal.h: COLLECT_LATENCY", "include/libcouchstore/couch_latency.h"]}
{"id": "C78", "title": "Filling files with generated documents", "statement": "The program that generates documents makes as many keys as asked for, from the start key on, and puts each of them into the file of exactly the vbucket that clients would look it up in, for all vbuckets that are listed and no others; all documents are saved in batches and committed, and the state of the vbucket is saved after them; a file that exists is not written to unless it is to be reused; the program ends.", "quantifier": "all numbers of keys, vbuckets and documents in a batch, all lists of vbuckets, all files that exist, all speeds of the other threads", "why_tests_cant": "depends on the hashes of all keys, on the list of vbuckets and on the order of the threads", "anchors": ["src/couch_create.cc: ProgramParameters::load, VBucket, VBucketFlusher::run, start, main", "src/crc32.cc: client_hash_crc32"]}
{"id": "C79", "title": "Dumping all headers of a file", "statement": "With the option to iterate over the headers, the program that dumps documents dumps, for each commit from the newest one backward, exactly the documents that the commit contained, and none of the commits twice; it reports success and the number of documents if and only if everything was dumped.", "quantifier": "all histories of a file, all crashes, all commits to begin with, all orders of the dump and ways of printing", "why_tests_cant": "the headers that are found depend on the whole history of the file and on what a crash has left of it", "anchors": ["src/dbdump.cc: process_vbucket_file, foldprint", "src/couch_db.cc: seek, couchstore_rewind_db_header_impl"]}
{"id": "C80", "title": "Dumping local documents", "statement": "The program that dumps local documents prints every local document that can be opened, in the order of the names, and no others, also from a damaged file or from what a crash has left; a document that cannot be read, decoded or printed does not keep the others from being printed, and then, and only then, a failure is reported; with a name that document alone is printed, and a failure is reported if there is none.", "quantifier": "all histories of a file, all damages that checksums notice, all crashes, all behaviours of the libraries that decode", "why_tests_cant": "which parts of the tree are damaged, and which documents fail, is arbitrary", "anchors": ["src/dbdump.cc: local_doc_print, local_doc_print_json, couchstore_print_local_docs, process_vbucket_file", "src/btree_read.cc: btree_lookup_inner"]}
{"id": "C81", "title": "Dumping trees", "statement": "The program that dumps trees prints every node of the tree by id, by sequence number or of local documents once, before what is below it, with its depth, size and reduction, and every document once, in order and below its nodes, with its sizes and name; it says of no document that it is corrupt, and prints their number; also for what a crash has left, where it is the newest commit that is dumped. A file that cannot be opened is a failure.", "quantifier": "all histories of a file, all crashes, all shapes of trees", "why_tests_cant": "the trees have any depth and any sizes of nodes, and arise from any sequence of saves", "anchors": ["src/dbdump.cc: visit_node, process_vbucket_file", "src/couch_db.cc: couchstore_walk_id_tree, couchstore_walk_seq_tree, couchstore_walk_local_tree"]}
{"id": "C82", "title": "Dumping an index file", "statement": "The program that dumps the index file of a view group prints, for each view, one row for each key that a document has emitted, in the order of the index, with the key, the document and the values, and at the end the number of rows.", "quantifier": "all view groups, all sizes of headers and indexes", "why_tests_cant": "the indexes have any number of entries and depth, and the header any size", "anchors": ["src/dbdump.cc: lookup_callback, find_view_header_at_pos, find_view_header, process_view_file", "src/views/index_header.cc: decode_index_header"]}
{"id": "C83", "title": "Comparing two files", "statement": "The program that compares two files reports success exactly if the newest commits of the two hold the same documents: the same ids, and for each the same sequence number, revision, metadata, deletion and body. Otherwise it names exactly the documents that are missing in one of the files or differ, and says in what.", "quantifier": "all pairs of histories of files, all crashes, all documents", "why_tests_cant": "the two files may differ in any document, in any field or byte, and have any number of documents and any shape", "anchors": ["programs/dbdiff/dbdiff.cc: compare_docinfo, compare_documents, deep_compare, check_existing, diff, main", "src/couch_db.cc: couchstore_all_docs, couchstore_docinfo_by_id, couchstore_open_document"]}
{"id": "C84", "title": "Reading a dump", "statement": "From the lines that hexdump prints of a file the program hex2bin makes the bytes of that file again: in units of one or of several bytes with the lowest first, with lines that repeat the one before given as a star, and with a question mark for every byte of a part that is missing in the dump. This holds for dumps whose last unit is complete.", "quantifier": "all contents of files, all formats of units, spaces and offsets, all places of stars and gaps", "why_tests_cant": "dumps are of any content and length, with stars and missing parts at any place", "anchors": ["programs/hex2bin/hex2bin.cc: unhex, main"]}
{"id": "C85", "title": "Adding a commit", "statement": "The program recommit adds a commit to a file that is not encrypted. Without options the documents stay the same, whatever happens while it runs: after any crash in it every question has the answer that it had, and every successful commit can still be opened at its offset. When it ends with success the new commit is durable, in the first block after the old end. With options exactly the positions of the roots that are given are changed and printed with a star, reduce values stay, and no byte that was in the file is changed. A file whose newest header is damaged is refused.", "quantifier": "all histories of a file, all crashes before and in the program, all options and times", "why_tests_cant": "the file may be in any state, a crash may lose any of the writes, and the options may be any numbers", "anchors": ["programs/recommit/recommit.cc: main", "src/couch_db.cc: couchstore_commit, couchstore_commit_ex, couchstore_open_db"]}
{"id": "C86", "title": "The key of a new file", "statement": "A command line program opens an encrypted file with the key that the file names, whatever it has opened before. A file that it creates is encrypted with the key of the encrypted file that it opened last before, and is not encrypted if there was none.", "quantifier": "all sequences of files that a program opens and creates, all keys", "why_tests_cant": "the key depends on the whole sequence of files opened before", "anchors": ["src/program_getopt.cc: ProgramGetopt::lookup", "src/dbdump.cc: lookup_encryption_key"]}
