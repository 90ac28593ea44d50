{"claims": [
{"property": "C01", "status": "proved", "theorems": ["Couchstore.Props.C01_int_roundtrip_mod", "Couchstore.Props.C01_int_roundtrip", "Couchstore.Props.C01_int_surjective", "Couchstore.Props.C01_int_width", "Couchstore.Props.C01_int_order"], "note": "All widths at once."},
{"property": "C02", "status": "proved", "theorems": ["Couchstore.Props.C02_kv_roundtrip", "Couchstore.Props.C02_kv_in_bounds", "Couchstore.Props.C02_kv_partition", "Couchstore.Props.C02_kv_oversize_key_corrupts"], "note": "Round trip within the limits, bounds on arbitrary bytes, and the corruption outside the limits."},
{"property": "C03", "status": "proved", "theorems": ["Couchstore.Props.C03_docinfo_roundtrip", "Couchstore.Props.C03_docinfo_reject_short", "Couchstore.Props.C03_docinfo_disagree_large"], "note": ""},
{"property": "C04", "status": "proved", "theorems": ["Couchstore.Props.C04_append_read", "Couchstore.Props.C04_append_read_compressed", "Couchstore.Props.C04_header_read", "Couchstore.Props.C04_append_total"], "note": "Plain and encrypted files; any later appends, successful or not; injected short writes, short reads and errors."},
{"property": "C05", "status": "proved", "theorems": ["Couchstore.Props.C05_save_documents", "Couchstore.Props.C05_save_local_document", "Couchstore.Props.C05_save_local_documents", "Couchstore.Props.C05_commit"], "note": "All four calls that write, on any handle whose append position is not after the end of the file (also on corrupt files), success or failure at any raw operation. 'End of the file' is the handle's append position: after a failed write bytes beyond it may be overwritten."},
{"property": "C06", "status": "proved", "theorems": ["Couchstore.Props.C06_id_order", "Couchstore.Props.C06_id_order_prefix", "Couchstore.Props.C06_seq_order", "Couchstore.Props.C06_total_orders"], "note": ""},
{"property": "C07", "status": "proved", "theorems": ["Couchstore.Props.C07_batch_is_map_fold", "Couchstore.Props.C07_failure", "Couchstore.Props.C07_history"], "note": "Any tree shape, node limits, callbacks and reduce functions, with I/O faults; histories of batches."},
{"property": "C08", "status": "proved", "theorems": ["Couchstore.Props.C08_structure"], "note": "Stated with an executable integrity checker."},
{"property": "C09", "status": "proved", "theorems": ["Couchstore.Props.C09_lookup", "Couchstore.Props.C09_repeated_key_reported_missing", "Couchstore.Props.C09_docinfos_by_id"], "note": "Any tree, callback and I/O faults; keys must be distinct (shown necessary)."},
{"property": "C10", "status": "proved", "theorems": ["Couchstore.Props.C10_range"], "note": "Any tree, bounds, callback and I/O faults."},
{"property": "C11", "status": "proved", "theorems": ["Couchstore.Props.C11_read_your_writes"], "note": "for every reachable handle (any history of saves and failed saves), any batch within the limits of SaveArgs, any misbehaving raw operations"},
{"property": "C12", "status": "proved", "theorems": ["Couchstore.Props.C12_indexes_agree"], "note": "for every reachable handle (any history of saves and failed saves), any batch within the limits of SaveArgs, any misbehaving raw operations"},
{"property": "C13", "status": "proved", "theorems": ["Couchstore.Props.C13_consecutive", "Couchstore.Props.C13_as_is", "Couchstore.Props.C13_failed_save", "Couchstore.Props.C13_never_decreases", "Couchstore.Props.C13_not_reused"], "note": "for every reachable handle (any history of saves and failed saves), any batch within the limits of SaveArgs, any misbehaving raw operations"},
{"property": "C14", "status": "proved", "theorems": ["Couchstore.Props.C14_changes_since"], "note": "for every reachable handle (any history of saves and failed saves), any batch within the limits of SaveArgs, any misbehaving raw operations"},
{"property": "C15", "status": "proved", "theorems": ["Couchstore.Props.C15_all_docs"], "note": "for every reachable handle (any history of saves and failed saves), any batch within the limits of SaveArgs, any misbehaving raw operations"},
{"property": "C16", "status": "proved", "theorems": ["Couchstore.Props.C16_statistics"], "note": "for every reachable handle (any history of saves and failed saves), any batch within the limits of SaveArgs, any misbehaving raw operations"},
{"property": "C17", "status": "proved", "theorems": ["Couchstore.Props.C17_changes_count"], "note": "for every reachable handle (any history of saves and failed saves), any batch within the limits of SaveArgs, any misbehaving raw operations"},
{"property": "C18", "status": "proved", "theorems": ["Couchstore.Props.C18_local_documents"], "note": "for every reachable handle (any history of saves and failed saves), any batch within the limits of SaveArgs, any misbehaving raw operations"},
{"property": "C19", "status": "proved", "theorems": ["Couchstore.Props.C19_failed_save", "Couchstore.Props.C19_failed_local_save"], "note": "for every reachable handle (any history of saves and failed saves), any batch within the limits of SaveArgs, any misbehaving raw operations"},
{"property": "C20", "status": "proved", "theorems": ["Couchstore.Props.C20_commit_reopen", "Couchstore.Props.C20_commit_keeps_answers", "Couchstore.Props.C20_commit_succeeds"], "note": "For every history (creation, saves, local saves, commits, moves, reopens, crashes, failing raw operations). Every question of the read API gets the same answer; timestamps exist from file version 13 on. C20_commit_succeeds: a commit fails only by a failing raw operation or if a number does not fit its header field (modelled as formatLimit)."},
{"property": "C21", "status": "proved", "theorems": ["Couchstore.Props.C21_commit_atomic", "Couchstore.Props.C21_commit_durable", "Couchstore.Props.C21_any_history"], "note": "Crash model in Spec/Crash.lean: each byte written since the last successful sync persists or not independently of the others; file length between the synced and the written one. Crash points are all prefixes of the raw event log of saves and commit. A successful sync is assumed to make all earlier writes durable."},
{"property": "C22", "status": "proved", "theorems": ["Couchstore.Props.C22_recovery_repeatable"], "note": "The handle after recovery is again a History, so every theorem on histories applies to it, for any number of crashes."},
{"property": "C23", "status": "proved", "theorems": ["Couchstore.Props.C23_open_selects_last_header", "Couchstore.Props.C23_open_finds_last_header", "Couchstore.Props.C23_damaged_header_reported", "Couchstore.Props.C23_recovery_selects_newest_intact", "Couchstore.Props.C23_recovery_finds_newest_intact", "Couchstore.Props.C23_no_header"], "note": "For every file content. Normal opening selects exactly the last block not holding data, and only if it is an intact header (with any failing reads); otherwise it fails with an error other than NO_HEADER. Recovery selects the newest intact header over any damaged blocks. Deviations of the code made explicit in the statements: a header of an unknown version stops even recovery; a block starting at the very last byte of the file is ignored; a raw error numbered like NO_HEADER is taken for absence of a header."},
{"property": "C24", "status": "proved", "theorems": ["Couchstore.Props.C24_time_travel", "Couchstore.Props.C24_seek_commit", "Couchstore.Props.C24_rewind", "Couchstore.Props.C24_rewind_old", "Couchstore.Props.C24_fast_forward", "Couchstore.Props.C24_failed_seek", "Couchstore.Props.C24_invalid_arguments_empties"], "note": "Any of rewind, fast forward, seek to offset, seek in a direction. One exception, shown by the witness C24_invalid_arguments_empties: a raw read failing with the number of INVALID_ARGUMENTS leaves the handle showing an empty database."},
{"property": "C25", "status": "proved", "theorems": ["Couchstore.C25_table_is_crc32", "Couchstore.C25_damaged_chunk_detected", "Couchstore.C25_damaged_compressed_chunk_detected", "Couchstore.C25_damaged_header_detected"], "note": "burst of up to four consecutive bytes of any data chunk or header; the table of the code is proved to be CRC-32, the CRC-32C library is assumed to compute CRC-32C"},
{"property": "C26", "status": "proved", "theorems": ["Couchstore.Props.C26_compaction_keeps_contents", "Couchstore.Props.C26_compaction_with_filter", "Couchstore.Props.C26_compacted_file_has_history", "Couchstore.Props.C26_compaction_succeeds"], "note": "Every question (metadata, bodies, by-sequence and by-id scans, counts, local documents, statistics) is answered by the reopened compacted file as by the source, without the tombstones when drop-deletes is set (C26_compaction_keeps_contents), or without the documents dropped by a filter (C26_compaction_with_filter). The timestamp is the same unless the target is a legacy file, whose format stores none. The file system calls that replace or delete the target, the rewrite callback and the replay of later changes (C37) are not part of this."},
{"property": "C27", "status": "proved", "theorems": ["Couchstore.C27_merge_sort_sorts", "Couchstore.C27_block_size_zero"], "note": "all strict weak orders, block sizes >= 1 and record sequences; a block size of 0 is shown to fail"},
{"property": "C28", "status": "proved", "theorems": ["Couchstore.C28_merge_sorted", "Couchstore.C28_result", "Couchstore.C28_dedup_counts", "Couchstore.C28_dedup_winner"], "note": "all numbers and contents of sorted files, all comparisons and callbacks, all read and callback failures; with deduplication the exact number of records per key, and the chosen winner if no file has a key twice"},
{"property": "C29", "status": "partial", "theorems": ["Couchstore.Props.C29_buffered_equals_direct_partial", "Couchstore.Props.C29_buffered_with_failures_partial", "Couchstore.Props.C29_release_drops_writes", "Couchstore.Props.C29_release_after_failed_sync", "Couchstore.Props.C29_end_of_file_without_pending", "Couchstore.Props.C29_close_loses_writes"], "note": "Equality of all results and of the synced content is proved for all files, parameters and sequences in which buffers are released only while nothing is waiting in them, and a simulation of direct use for arbitrary failing and short raw operations.  For releases with pending writes the property is false of the code: C29_release_drops_writes, C29_release_after_failed_sync.  Also shown: the end of file reported through the buffer and close ignore pending writes."},
{"property": "C30", "status": "proved", "theorems": ["Couchstore.Props.C30_no_new_crash_images", "Couchstore.Props.C30_no_new_crash_images_with_failures"], "note": "For every crash moment inside every operation, without failures (against the direct run of the same operations) and with failing and short raw operations (against a direct execution with the same results)."},
{"property": "C31", "status": "partial", "theorems": ["Couchstore.Props.C31_second_range_lost", "Couchstore.Props.C31_ranges_fail", "Couchstore.Props.C31_single_range_partial", "Couchstore.Props.C31_docinfos_range_partial", "Couchstore.Props.C31_docinfos_seq_range_partial"], "note": "False of the code: with two ranges the second is lost (C31_ranges_fail); holds for a single range."},
{"property": "C32", "status": "partial", "theorems": ["Couchstore.Props.C32_search_partial", "Couchstore.Props.C32_search_exact_partial", "Couchstore.Props.C32_granularity", "Couchstore.Props.C32_granularity_zero", "Couchstore.Props.C32_beyond_the_end", "Couchstore.Props.C32_search_misses"], "note": "False of the code as stated: C32_search_misses is a history in which an older commit contains the sequence number (the binary search stops when the first header at or after the middle is the right border, and ignores the headers between the left border and the middle). Proved: the search always succeeds at a commit that contains the sequence number (C32_search_partial), it is the first one if the distances of headers shrink and last sequences grow (C32_search_exact_partial), and what other granularities do (C32_granularity). C32_beyond_the_end: a search for a sequence number that no commit contains can report success."},
{"property": "C33", "status": "proved", "theorems": ["Couchstore.Props.C33_save_callback"], "note": "for every reachable handle (any history of saves and failed saves), any batch within the limits of SaveArgs, any misbehaving raw operations"},
{"property": "C34", "status": "partial", "theorems": ["Couchstore.Props.C34_guided_purge_partial", "Couchstore.Props.C34_guided_purge_exact_partial", "Couchstore.Props.C34_purge_filters", "Couchstore.Props.C34_purge_failure", "Couchstore.Props.C34_purge_state", "Couchstore.Props.C34_partial_without_purge_drops", "Couchstore.Props.C34_purge_loses_entries"], "note": "A successful purge never keeps a purged entry, invents one or breaks the tree, and keeps exactly the entries to be left whenever no node can overflow (leaves within the limit, interior nodes with few enough records). The unconditional claim is false of the code: C34_purge_loses_entries builds and purges an index with one request and loses ten entries, because guided_purge_btree returns only the last half of a split root; C34_partial_without_purge_drops shows that PURGE_PARTIAL for a subtree without purged entries drops it."},
{"property": "C35", "status": "proved", "theorems": ["Couchstore.Props.C35_nonce_unique", "Couchstore.Props.C35_failed_append_reuses_nonce"], "note": "Also shows that the claim is false of failed appends (nonce reuse on retry)."},
{"property": "C36", "status": "partial", "theorems": ["Couchstore.Props.C36_options_decoded", "Couchstore.Props.C36_open_flags_decoded", "Couchstore.Props.C36_encode_interval_partial", "Couchstore.Props.C36_encode_undefined", "Couchstore.Props.C36_encode_rounds_up"], "note": "Decoding of the open flags is proved for every word. The encoding of a sync interval is proved for intervals from 1 to 2^64-1024; for 0 and larger ones the code's behaviour is undefined (C36_encode_undefined), so the statement for all intervals does not hold. C36_encode_rounds_up: the interval may be rounded up, contrary to the header file."},
{"property": "C37", "status": "partial", "theorems": ["Couchstore.Props.C37_replay_overlay", "Couchstore.Props.C37_replay_partial", "Couchstore.Props.C37_writes_grow", "Couchstore.Props.C37_grown_congr", "Couchstore.Props.C37_replayed_file_has_history", "Couchstore.Props.C37_replay_succeeds", "Couchstore.Props.C37_deleted_local_document_stays"], "note": "For any two file histories (source positioned on the snapshot, target holding the snapshot except for documents 'gone'), any flush threshold, hooks and faults: a successful replay leaves in the target exactly the contents of the commit at the given offset minus the documents that were gone and not changed since (C37_replay_partial), for every query, up to body positions/sizes; overlay form without the relation (C37_replay_overlay); the target is a file with a history again, so all crash and commit theorems apply, and a failed replay loses no candidate (C37_replayed_file_has_history); an undisturbed replay succeeds (C37_replay_succeeds). Missing (false of the code): a local document deleted in the source after the snapshot stays in the target (C37_deleted_local_document_stays); therefore Grown (no deletions of local documents, no as-is saves) is assumed, and C37_writes_grow proves it of ordinary use."},
{"property": "C38", "status": "proved", "theorems": ["Couchstore.Props.C38_save_succeeds", "Couchstore.Props.C38_term_buffer_exact"], "note": "for every reachable handle (any history of saves and failed saves), any batch within the limits of SaveArgs, any misbehaving raw operations"},
{"property": "C39", "status": "partial", "theorems": ["Couchstore.Props.C39_sorted_partial", "Couchstore.Props.C39_succeeds_partial", "Couchstore.Props.C39_no_deadlock_partial", "Couchstore.Props.C39_bounded", "Couchstore.Props.C39_completes", "Couchstore.Props.C39_source_kept", "Couchstore.Props.C39_other_files_untouched", "Couchstore.Props.C39_names_used_up", "Couchstore.Props.C39_worker_failure_unnoticed", "Couchstore.Props.C39_worker_failure_deadlock", "Couchstore.Props.C39_final_failure_loses_records", "Couchstore.Props.C39_stale_file_merged", "Couchstore.Props.C39_size_wraps"], "note": "For all schedules, spurious wake-ups and failures of the calling thread: success implies a sorted permutation and no leftovers (C39_sorted_partial, for runs in which no worker operation fails and no temporary file of another process is in the way); undisturbed runs succeed and can always be completed (C39_succeeds_partial, C39_completes); no deadlock without worker failures (C39_no_deadlock_partial); every run is bounded, also with failures (C39_bounded); source intact until the output and no other files touched, also with failures (C39_source_kept, C39_other_files_untouched). False of the code: worker failures are lost or deadlock, a failing final merge loses the records, stale files are merged, names run out, sizes wrap (six witnesses)."},
{"property": "C40", "status": "proved", "theorems": ["Couchstore.Props.C40_sorts", "Couchstore.Props.C40_any_comparison", "Couchstore.Props.C40_part", "Couchstore.Props.C40_serves_file_sorter", "Couchstore.Props.C40_not_stable"], "note": "For every comparison that is a total preorder; termination, bounds and permutation for every comparison at all. The order of equal elements is not kept (witness). What C39 assumes of the sort in memory follows."},
{"property": "C41", "status": "partial", "theorems": ["Couchstore.Props.C41_total_preorder", "Couchstore.Props.C41_order_partial", "Couchstore.Props.C41_numbers", "Couchstore.Props.C41_form_feed", "Couchstore.Props.C41_unicode_escape", "Couchstore.Props.C41_signed_bytes", "Couchstore.Props.C41_not_json_endless", "Couchstore.Props.C41_whitespace"], "note": "Total preorder, termination and bounds for all JSON values in all modes; CouchDB's order except for strings with \\f, \\u escapes above 127, or (byte modes, signed char) bytes above 127, where the code does not give it (witnesses). strtod and ICU are parameters with laws."},
{"property": "C42", "status": "partial", "theorems": ["Couchstore.Props.C42_bitmap", "Couchstore.Props.C42_bitmap_overrun", "Couchstore.Props.C42_view_key", "Couchstore.Props.C42_json_key", "Couchstore.Props.C42_long_json_key", "Couchstore.Props.C42_id_key", "Couchstore.Props.C42_key_order", "Couchstore.Props.C42_value", "Couchstore.Props.C42_value_count", "Couchstore.Props.C42_many_values", "Couchstore.Props.C42_id_value_partial", "Couchstore.Props.C42_id_value_unset", "Couchstore.Props.C42_reduction", "Couchstore.Props.C42_many_reductions", "Couchstore.Props.C42_id_reduction", "Couchstore.Props.C42_any_bytes", "Couchstore.Props.C42_records", "Couchstore.Props.C42_cut_file_partial", "Couchstore.Props.C42_cut_unnoticed", "Couchstore.Props.C42_empty_record", "Couchstore.Props.C42_garbage_record", "Couchstore.Props.C42_newest_wins"], "note": "The codecs of view indexes invert each other within the limits of the fields, for all lengths and numbers; reading arbitrary bytes never goes out of bounds except where counts wrap. Partial because the code does not have the property at some limits (witness theorems): partitions above 1023, JSON keys of 64 KiB, 65536 values, 256 results; the number of views is left unset for a value by document id without views, and a record file cut inside a length field is taken for complete."},
{"property": "C43", "status": "proved", "theorems": ["Couchstore.Props.C43_count", "Couchstore.Props.C43_sum", "Couchstore.Props.C43_long_number", "Couchstore.Props.C43_id_index", "Couchstore.Props.C43_view_index", "Couchstore.Props.C43_too_many_reducers"], "note": "Reducers are specified by what they give for a list of keys and values; _count and _sum (integers, |sum| < 10^15; floating point as laws) are shown to meet theirs, _stats is not modelled. Keys are from a class that the comparison tells apart (C41: equal keys may have different bytes)."},
{"property": "C44", "status": "partial", "theorems": ["Couchstore.Props.C44_build_ids", "Couchstore.Props.C44_build_view", "Couchstore.Props.C44_cleanup_partial", "Couchstore.Props.C44_cleanup_exact_partial", "Couchstore.Props.C44_cleanup_failure", "Couchstore.Props.C44_cleanup_loses_entries"], "note": "False in full: C44_cleanup_loses_entries. Proved: entries left are an end piece of those to be left; exact if no node can overflow. Counts for less than 2^40 entries."},
{"property": "C45", "status": "partial", "theorems": ["Couchstore.Props.C45_header_roundtrip", "Couchstore.Props.C45_decoded_header", "Couchstore.Props.C45_long_root_lost", "Couchstore.Props.C45_short_header_overruns", "Couchstore.Props.C45_write_read", "Couchstore.Props.C45_write_keeps", "Couchstore.Props.C45_build_group", "Couchstore.Props.C45_cleanup_group_partial", "Couchstore.Props.C45_cleanup_group_exact_partial", "Couchstore.Props.C45_cleanup_group_failure"], "note": "Header codec, its place in the file, build and cleanup of the group are proved; the cleanup is exact only under the hypothesis that no node overflows (false otherwise, see C44), long roots and short headers are witnesses against the claim. Allocation never fails and buffering is not modelled here."},
{"property": "C46", "status": "proved", "theorems": ["Couchstore.Props.C46_sorted_list"], "note": "Add, get and remove, for every sequence of operations; the iterators are not modelled."},
{"property": "C47", "status": "proved", "theorems": ["Couchstore.Props.C47_update_group", "Couchstore.Props.C47_update_stats", "Couchstore.Props.C47_update_failure", "Couchstore.Props.C47_update_determined"], "note": "for record files in the order of the keys (is_sorted); purged counts as bounds, exact if no record names an entry that is to go"},
{"property": "C48", "status": "partial", "theorems": ["Couchstore.Props.C48_read_records", "Couchstore.Props.C48_cut_record_refused_partial", "Couchstore.Props.C48_cut_group_refused_partial", "Couchstore.Props.C48_cut_length_ignored"], "note": "false of the code for a file cut within the length of a record (C48_cut_length_ignored); the other cuts are refused"},
{"property": "C49", "status": "proved", "theorems": ["Couchstore.Props.C49_compact_group", "Couchstore.Props.C49_compact_failure"], "note": "Whole groups, with the header, both files and all faults."},
{"property": "C50", "status": "partial", "theorems": ["Couchstore.Props.C50_sorted_file_partial", "Couchstore.Props.C50_update_unsorted_partial", "Couchstore.Props.C50_record_bytes", "Couchstore.Props.C50_equal_keys_swapped"], "note": "Proved for files in which no key comes twice; for a key that comes twice it is false of the code, see the witness C50_equal_keys_swapped."},
{"property": "C51", "status": "proved", "theorems": ["Couchstore.Props.C51_walk_id", "Couchstore.Props.C51_walk_seq", "Couchstore.Props.C51_walk_local"], "note": "Walks over the three trees for every reachable database; tolerant mode is covered for callbacks that do not fail on files without misbehaving operations."},
{"property": "C52", "status": "proved", "theorems": ["Couchstore.Props.C52_stream_is_tape", "Couchstore.Props.C52_reopen", "Couchstore.Props.C52_records", "Couchstore.Props.C52_flush_skips"], "note": "Streams on the raw file operations refine a file of bytes for all allowed sequences of operations and all faults except reads of 0 bytes before the end; records are read back. Streams on the C library's FILE are not modelled."},
{"property": "C53", "status": "partial", "theorems": ["Couchstore.Props.C53_verified_partial", "Couchstore.Props.C53_after_checksum_error", "Couchstore.Props.C53_after_checksum_abort", "Couchstore.Props.C53_cut_header_unnoticed"], "note": "Proved up to the first error or end of file. The full claim is false: reads after an error deliver unverified bytes or abort, a cut within a chunk header is taken for the end of the file (witness theorems)."},
{"property": "C54", "status": "proved", "theorems": ["Couchstore.Props.C54_blocks_apart", "Couchstore.Props.C54_steps", "Couchstore.Props.C54_success"], "note": "All histories of allocations, marks and frees with any results of malloc; a padded allocation must not fail and no mark may be taken right after a failure (see C55). size_t does not overflow."},
{"property": "C55", "status": "partial", "theorems": ["Couchstore.Props.C55_aligned_partial", "Couchstore.Props.C55_misaligned", "Couchstore.Props.C55_failure_not_null", "Couchstore.Props.C55_mark_after_failure"], "note": "Aligned if no padding is needed or the block fits the current chunk. The full claim is false: a padded block in a new chunk is misaligned, a failed padded allocation is not null, a mark after a failure is bogus (witness theorems)."},
{"property": "C56", "status": "proved", "theorems": ["Couchstore.Props.C56_periodic_sync", "Couchstore.Props.C56_failure_reported", "Couchstore.Props.C56_invalid_not_counted"], "note": "All runs of operations on an open file with any answers of the system calls; writes found invalid are excluded (witness theorem why). Windows is not modelled."},
{"property": "C57", "status": "partial", "theorems": ["Couchstore.Props.C57_validated_partial", "Couchstore.Props.C57_burst_detected", "Couchstore.Props.C57_unread_accepted", "Couchstore.Props.C57_read_error_overrun"], "note": "For all answers of the system calls if tracing is off and no memory is overwritten, or if the reads gave something. The full claim is false: a failed read is accepted with tracing and overwrites memory without (witness theorems)."},
{"property": "C58", "status": "partial", "theorems": ["Couchstore.Props.C58_read_retried", "Couchstore.Props.C58_write_retried_partial", "Couchstore.Props.C58_open_retried", "Couchstore.Props.C58_interrupted_validation", "Couchstore.Props.C58_closed_twice"], "note": "Opening, reading, and writing without validation. The full claim is false: reads of the validation are not repeated, and closing is repeated although the descriptor was released (witness theorems)."},
{"property": "C59", "status": "proved", "theorems": ["Couchstore.Props.C59_recovery_keeps_readable", "Couchstore.Props.C59_error_tells_of_loss", "Couchstore.Props.C59_recovery_succeeds", "Couchstore.Props.C59_recovered_file_has_history", "Couchstore.Props.C59_undamaged_nothing_lost", "Couchstore.Props.C59_local_documents_block_recovery"], "note": "For damage that the checksums notice (DamagedFile), without misbehaving raw operations during the recovery, and with a filter that keeps everything (as couch_dbck uses it). The exception for local documents is needed: C59_local_documents_block_recovery."},
{"property": "C60", "status": "proved", "theorems": ["Couchstore.Props.C60_compaction_with_other_metadata", "Couchstore.Props.C60_callback_needs_filter"], "note": "bodies are those stored in the source; failures of the callback's own code are not modelled"},
{"property": "C61", "status": "partial", "theorems": ["Couchstore.Props.C61_build_partial", "Couchstore.Props.C61_build_succeeds_partial", "Couchstore.Props.C61_window_search", "Couchstore.Props.C61_window_search_succeeds", "Couchstore.Props.C61_box_of_key", "Couchstore.Props.C61_loses_records"], "note": "Proved for builds in which no system call fails: contents, order, smallest boxes, searches; the only failure is a limit of the file format. With a failing write the full claim is false of the code: C61_loses_records."},
{"property": "C62", "status": "proved", "theorems": ["Couchstore.Props.C62_interleave", "Couchstore.Props.C62_compare", "Couchstore.Props.C62_monotone", "Couchstore.Props.C62_equal", "Couchstore.Props.C62_cells", "Couchstore.Props.C62_merge_order", "Couchstore.Props.C62_many_numbers"], "note": "Arithmetic on doubles (center and scaling to the grid) is a parameter; the theorems are about every such arithmetic whose results fit into 32 bits. Up to 255 dimensions, as many as a key can have."},
{"property": "C63", "status": "partial", "theorems": ["Couchstore.Props.C63_compact_partial", "Couchstore.Props.C63_compact_all_partial", "Couchstore.Props.C63_compact_failure_partial"], "note": "As C61: the writes to the new file do not fail; reads of the old file may."},
{"property": "C64", "status": "partial", "theorems": ["Couchstore.Props.C64_stats_partial", "Couchstore.Props.C64_view_index_partial", "Couchstore.Props.C64_rounded", "Couchstore.Props.C64_depends_on_tree", "Couchstore.Props.C64_no_values"], "note": "Full statement: the statistics are right for all numbers. False of the code: numbers are printed with six digits at every level of the tree (C64_rounded, C64_depends_on_tree), and leaves without values count as a value 0 (C64_no_values). Proved: for integers, the number of values always, each of the other numbers as long as it has less than 7 digits; for the function and for the root of a view index after any history of updates with faults."},
{"property": "C65", "status": "proved", "theorems": ["Couchstore.Props.C65_keeps_the_last_commit", "Couchstore.Props.C65_documents_were_there", "Couchstore.Props.C65_stale_documents_are_found", "Couchstore.Props.C65_newest_readable_version", "Couchstore.Props.C65_count_is_right", "Couchstore.Props.C65_stale_handles_show_commits", "Couchstore.Props.C65_result_is_committed", "Couchstore.Props.C65_nothing_stale", "Couchstore.Props.C65_readable_document_is_missing", "Couchstore.Props.C65_deleted_document_comes_back", "Couchstore.Props.C65_failed_recovery_uses_null_handle"], "note": "model of the recovery tool; assumes damage that checksums notice (of chunks and of headers), that raw operations do not fail, that tombstones are kept, and that no sequence number was used for two ids; what the tool does not do is shown by C65_readable_document_is_missing, C65_deleted_document_comes_back and C65_failed_recovery_uses_null_handle"},
{"property": "C66", "status": "proved", "theorems": ["Couchstore.Props.C66_exit_status", "Couchstore.Props.C66_pass_means_nothing_lost", "Couchstore.Props.C66_no_false_alarm", "Couchstore.Props.C66_index_mismatch_unnoticed", "Couchstore.Props.C66_unopenable_file_uses_null_handle"], "note": "For damage that the checksums notice. The counts that the program compares are never incremented: C66_index_mismatch_unnoticed; a file that cannot be opened: C66_unopenable_file_uses_null_handle."},
{"property": "C67", "status": "partial", "theorems": ["Couchstore.Props.C67_group_is_read", "Couchstore.Props.C67_cleanup_is_called", "Couchstore.Props.C67_builder_is_called", "Couchstore.Props.C67_updater_is_called", "Couchstore.Props.C67_compactor_is_called", "Couchstore.Props.C67_merger_is_called", "Couchstore.Props.C67_cut_compactor", "Couchstore.Props.C67_cut_cleanup", "Couchstore.Props.C67_cut_updater_partial", "Couchstore.Props.C67_cut_builder_partial", "Couchstore.Props.C67_cut_merger_partial", "Couchstore.Props.C67_unknown_type_is_refused", "Couchstore.Props.C67_garbage_is_refused", "Couchstore.Props.C67_cut_updater_reports_success", "Couchstore.Props.C67_cut_name_is_used", "Couchstore.Props.C67_empty_reduce_function_is_refused", "Couchstore.Props.C67_negative_length_overruns", "Couchstore.Props.C67_long_name_is_split"], "note": "Reading is proved in full. Input that ends too early: proved for compaction and cleanup; for updates the exit status may be 0 (C67_cut_updater_reports_success), for builds the cut name of the last file is used (C67_cut_name_is_used), for merges the cut name of the destination."},
{"property": "C68", "status": "partial", "theorems": ["Couchstore.Props.C68_prints_newest", "Couchstore.Props.C68_lists_backward", "Couchstore.Props.C68_lists_backward_from", "Couchstore.Props.C68_lists_forward_partial", "Couchstore.Props.C68_bad_position", "Couchstore.Props.C68_forward_prints_one"], "note": "Going forward without a position prints only the newest header (C68_forward_prints_one), so the claim about all headers, the oldest first, is proved from a given header on (C68_lists_forward_partial). The sizes of the three trees that are printed are not modelled. The read-only open of the tool may be of any crash image; raw operations do not fail while the tool runs."},
{"property": "C69", "status": "partial", "theorems": ["Couchstore.Props.C69_every_document_partial", "Couchstore.Props.C69_every_document_at_partial", "Couchstore.Props.C69_text_dump", "Couchstore.Props.C69_nothing_else", "Couchstore.Props.C69_missing_key", "Couchstore.Props.C69_order", "Couchstore.Props.C69_json_leaves_out", "Couchstore.Props.C69_one_document_ends_the_dump"], "note": "Text dumps are complete; in JSON a document that cannot be decompressed is left out, and one that is no JSON ends the program (witnesses C69_json_leaves_out, C69_one_document_ends_the_dump). C69_every_document_partial is for documents that can be printed."},
{"property": "C70", "status": "proved", "theorems": ["Couchstore.Props.C70_hook_is_committed", "Couchstore.Props.C70_hook_is_committed_without_filter", "Couchstore.Props.C70_filter_sets_purge_seq", "Couchstore.Props.C70_failing_hook", "Couchstore.Props.C70_idle_hook", "Couchstore.Props.C70_compacted_file_has_history"], "note": "Compaction with hooks, without the callback that rewrites metadata (C26 has that one without hooks)."},
{"property": "C71", "status": "partial", "theorems": ["Couchstore.Props.C71_purges_exactly_partial", "Couchstore.Props.C71_purge_number_lost", "Couchstore.Props.C71_limit_of_zero", "Couchstore.Props.C71_negative_time", "Couchstore.Props.C71_drop_deletes_ignored", "Couchstore.Props.C71_without_purge", "Couchstore.Props.C71_succeeds", "Couchstore.Props.C71_late_time_ends_the_program"], "note": "The full claim is false of the code: the purge sequence number is lost if nothing is purged, a negative time and a limit of 0 are misread, the option to drop deletes is ignored, and times from 2^31 on end the program; each has its theorem. Proved: exactly the expired tombstones are purged, everything else is kept, and success."},
{"property": "C72", "status": "partial", "theorems": ["Couchstore.Props.C72_build_group_partial", "Couchstore.Props.C72_compact_group_partial", "Couchstore.Props.C72_compact_failure_partial", "Couchstore.Props.C72_update_group", "Couchstore.Props.C72_update_failure", "Couchstore.Props.C72_update_forgets_cleanup"], "note": "Missing, because false of the code: writes that fail (C61_loses_records), and the cleanup mask after an update (C72_update_forgets_cleanup). The cleanup of a group (couchstore_cleanup_view_group) takes spatial views for other ones and is not modelled for them."},
{"property": "C73", "status": "proved", "theorems": ["Couchstore.Props.C73_reader_isolated", "Couchstore.Props.C73_reader_opens", "Couchstore.Props.C73_compaction_of_a_snapshot"], "note": "the reader may be opened between or during calls of the writer; the content it reads may mix moments byte by byte; opening itself happens at one moment"},
{"property": "C74", "status": "partial", "theorems": ["Couchstore.Props.C74_marked_was_read_partial", "Couchstore.Props.C74_marked_is_near", "Couchstore.Props.C74_read_is_marked_partial", "Couchstore.Props.C74_current_is_kept", "Couchstore.Props.C74_whole_block_is_full", "Couchstore.Props.C74_full_has_bytes_partial", "Couchstore.Props.C74_unread_is_marked", "Couchstore.Props.C74_read_is_hidden", "Couchstore.Props.C74_read_full_is_not_shown", "Couchstore.Props.C74_shown_full_is_not_read"], "note": "Proved for every sequence of reads: as long as current data is read, a block is marked only if something in it was read for that purpose, every block read is marked (if no read is without purpose), a block that is first read as a whole is full; old data never replaces current data; in any case a marked block was read or directly follows a read. Missing, because false of the code (witnesses C74_unread_is_marked, C74_read_is_hidden, C74_read_full_is_not_shown, C74_shown_full_is_not_read): blocks next to current data when old data is read, blocks read in search of headers, and which blocks are shown as full."},
{"property": "C75", "status": "partial", "theorems": ["Couchstore.Props.C75_merged_partial", "Couchstore.Props.C75_update_merged_partial", "Couchstore.Props.C75_success_means_all_read", "Couchstore.Props.C75_removal_is_lost", "Couchstore.Props.C75_old_destination_is_kept"], "note": "Proved for any number of files with any records in ascending order and no key twice in a file: merging succeeds and gives for each key the record of the last file that has one, and an update with merged files is one with all records in order. For files with any contents: success means that all were read to the end. Missing, because false of the code (C75_removal_is_lost): files with a removal and an insertion for the same key. What was in the destination stays in front (C75_old_destination_is_kept)."},
{"property": "C76", "status": "partial", "theorems": ["Couchstore.Props.C76_periodic_sync_partial", "Couchstore.Props.C76_every_write", "Couchstore.Props.C76_failure_reported", "Couchstore.Props.C76_offset", "Couchstore.Props.C76_read_offset", "Couchstore.Props.C76_read", "Couchstore.Props.C76_open", "Couchstore.Props.C76_close_sync", "Couchstore.Props.C76_bytes_not_counted", "Couchstore.Props.C76_huge_write", "Couchstore.Props.C76_not_reopened"], "note": "Proved for all sequences of operations: fewer than N writes are not synchronised after a successful write with a period of N; failures are reported; offsets below 2^63 are passed on exactly; reads at the end. Missing, because false of the code: fewer than N bytes (C76_bytes_not_counted), writes of 2^32 bytes (C76_huge_write), opening a closed file again (C76_not_reopened)."},
{"property": "C77", "status": "partial", "theorems": ["Couchstore.Props.C77_safe_partial", "Couchstore.Props.C77_report_partial", "Couchstore.Props.C77_no_wait", "Couchstore.Props.C77_bounded", "Couchstore.Props.C77_start_during_call", "Couchstore.Props.C77_stop_during_call", "Couchstore.Props.C77_restart_during_call", "Couchstore.Props.C77_report_during_call", "Couchstore.Props.C77_old_call_reported"], "note": "Proved for any number of threads, all interleavings and all histories in which the collection is started, stopped and read while no thread is in a call: nothing freed is used, and exactly the calls since the last start are reported (C77_safe_partial, C77_report_partial). Calls never wait and take at most six more steps, without that condition. Missing, because false of the code: starting, stopping and reading during calls (C77_start_during_call, C77_stop_during_call, C77_restart_during_call, C77_report_during_call, C77_old_call_reported)."},
{"property": "C78", "status": "partial", "theorems": ["Couchstore.Props.C78_files_partial", "Couchstore.Props.C78_unusable", "Couchstore.Props.C78_unmanaged", "Couchstore.Props.C78_once", "Couchstore.Props.C78_rounds", "Couchstore.Props.C78_list_partial", "Couchstore.Props.C78_all", "Couchstore.Props.C78_start_key_ignored", "Couchstore.Props.C78_no_keys", "Couchstore.Props.C78_endless", "Couchstore.Props.C78_unlisted_managed", "Couchstore.Props.C78_lost_wakeup", "Couchstore.Props.C78_wakeup"], "note": "Proved for all parameters, lists of vbuckets, existing files and speeds of the other threads: the documents of each usable file, their batches, commits and state; unusable and unmanaged files are left alone; every key is in exactly one file. Missing, because false of the code: the start key (C78_start_key_ignored, C78_no_keys), lists with numbers that do not exist (C78_endless) or more than 1024 vbuckets (C78_unlisted_managed), the start of the threads (C78_lost_wakeup)."},
{"property": "C79", "status": "partial", "theorems": ["Couchstore.Props.C79_every_header_partial", "Couchstore.Props.C79_every_header_from_partial", "Couchstore.Props.C79_complete_dump_fails", "Couchstore.Props.C79_failure_not_reported"], "note": "Everything is dumped, the newest commit first, for every history and crash, if the documents can be printed (C69). The report of success is wrong in the code: C79_complete_dump_fails (an encrypted file) and C79_failure_not_reported are the counterexamples."},
{"property": "C80", "status": "proved", "theorems": ["Couchstore.Props.C80_local_documents_of_damaged_file", "Couchstore.Props.C80_local_documents", "Couchstore.Props.C80_one_local_document", "Couchstore.Props.C80_missing_local_document"], "note": "For intact files, crash images and damaged files whose damages the checksums notice."},
{"property": "C81", "status": "proved", "theorems": ["Couchstore.Props.C81_tree_of_documents", "Couchstore.Props.C81_tree_of_local_documents", "Couchstore.Props.C81_tree_of_file", "Couchstore.Props.C81_unreadable_file"], "note": "For all databases a user may have and without raw I/O faults, and for the newest commit of what a crash has left; names with a collection only if all names have one (otherwise the program ends by an exception, see C69)."},
{"property": "C82", "status": "partial", "theorems": ["Couchstore.Props.C82_rows_partial", "Couchstore.Props.C82_values_run_together", "Couchstore.Props.C82_empty_view_is_undefined", "Couchstore.Props.C82_long_header_is_missed"], "note": "False of the code: a header of more than one block is missed (C82_long_header_is_missed), a view without entries is undefined behaviour (C82_empty_view_is_undefined), several values run together (C82_values_run_together), documents are not named, and the number is that of the last view. Proved for groups with the header in the last block, views with entries and one value for each key."},
{"property": "C83", "status": "partial", "theorems": ["Couchstore.Props.C83_same_partial", "Couchstore.Props.C83_lines", "Couchstore.Props.C83_same_documents_partial", "Couchstore.Props.C83_plain_body_fails", "Couchstore.Props.C83_same_file_fails", "Couchstore.Props.C83_difference_is_missed", "Couchstore.Props.C83_files_partial", "Couchstore.Props.C83_unreadable_file"], "note": "False of the code: a file with a body that is not compressed cannot be compared with itself (C83_same_file_fails, C83_plain_body_fails), and differences in metadata after 18 bytes are missed (C83_difference_is_missed). Proved: exactly when success is reported, for handles and for what crashes have left of two files, and that the lines name exactly the documents that are missing or differ, with the field."},
{"property": "C84", "status": "proved", "theorems": ["Couchstore.Props.C84_dump", "Couchstore.Props.C84_hexdump_canonical", "Couchstore.Props.C84_hexdump_squeezed", "Couchstore.Props.C84_padded_word"], "note": "A dump in words of a file of odd length shows a byte too many, which the program cannot know from the word: C84_padded_word. Errors of writing are not modelled."},
{"property": "C85", "status": "proved", "theorems": ["Couchstore.Props.C85_keeps_documents", "Couchstore.Props.C85_new_commit", "Couchstore.Props.C85_only_appends", "Couchstore.Props.C85_roots", "Couchstore.Props.C85_damage_is_reported"], "note": "Encrypted files cannot be opened by the program, which passes no keys; they are outside the statement. A header that the format has no room for ends it with an error, and the documents stay (C85_keeps_documents)."},
{"property": "C86", "status": "partial", "theorems": ["Couchstore.Props.C86_named_key", "Couchstore.Props.C86_new_file_partial", "Couchstore.Props.C86_older_key", "Couchstore.Props.C86_no_key", "Couchstore.Props.C86_one_source"], "note": "The key store and dump-keys are assumed, they are not in the repository. Missing: of a key that had been used before the claim about the file opened last is false, C86_older_key."}
]}
